import Verif.Plugin.LemmasManifest

/-!
# Manifests of plugin directories

C47: the plugins listed in a manifest are loaded, one per line, whatever the line ends.
-/

namespace VS.Plugin
open VS VS.Plugin.Spec

/-- The first line of a manifest. -/
def header : List Char := "[VapourSynth Manifest V1]".toList

/-- The full property: a manifest with the right first line lists a plugin on each further line
(empty lines do not count); any other file lists none and is rejected. -/
def ListsItsLines (contents : List Char) : Prop :=
  (∀ names, Pieces Newline contents (header :: names) → manifest contents = .ok (some names)) ∧
  ((¬ ∃ names, Pieces Newline contents (header :: names)) → manifest contents = .ok none)

/-- It holds for files of at most 10000 characters that contain something else than line ends,
and for the empty file. -/
theorem C47_lines_partial (contents : List Char) (hn : contents.length ≤ 10000)
    (h : contents = [] ∨ ∃ c ∈ contents, ¬ Newline c) : ListsItsLines contents := by
  have htake : contents.take 10000 = contents := List.take_of_length_le hn
  rcases h with rfl | h
  · refine ⟨?_, fun _ => rfl⟩
    intro names hp
    have e := Pieces.unique hp Pieces.nil
    cases e
  · obtain ⟨ps, h1, h2, h3⟩ := manifestLines_pieces h
    have hne : contents ≠ [] := by rintro rfl; obtain ⟨c, hc, _⟩ := h; cases hc
    unfold ListsItsLines manifest
    simp only
    rw [htake, if_neg hne, h1, Res.bind_ok]
    cases ps with
    | nil => exact absurd rfl h3
    | cons a t =>
      constructor
      · intro names hp
        have e := Pieces.unique h2 hp
        injection e with e1 e2
        subst e1; subst e2
        exact if_neg (fun hx => hx rfl)
      · intro hno
        refine if_pos ?_
        intro e
        rw [e] at h2
        exact hno ⟨t, h2⟩

example : manifest "\r\n[VapourSynth Manifest V1]\r\nfilters\n\nsub/other\r\n".toList =
    .ok (some ["filters".toList, "sub/other".toList]) := by decide +kernel

/-- Where the claim fails: a file with nothing but line ends ends the process with an uncaught
exception. -/
theorem C47_newlines_refuted (contents : List Char) (hn : contents.length ≤ 10000)
    (hne : contents ≠ []) (h : ∀ c ∈ contents, Newline c) :
    (∃ m, manifest contents = .fatal m) ∧ ¬ ListsItsLines contents := by
  have hf : ∃ m, manifest contents = .fatal m := by
    obtain ⟨m, hm⟩ := manifestLines_newlines h hne
    unfold manifest
    simp only
    rw [List.take_of_length_le hn, if_neg hne, hm, Res.bind_fatal]
    exact ⟨m, rfl⟩
  refine ⟨hf, ?_⟩
  rintro ⟨h1, h2⟩
  obtain ⟨m, hf⟩ := hf
  rw [hf] at h1 h2
  by_cases hx : ∃ names, Pieces Newline contents (header :: names)
  · obtain ⟨names, hx⟩ := hx
    cases h1 names hx
  · cases h2 hx

example : ∃ m, manifest "\n".toList = .fatal m := ⟨_, rfl⟩

/-- Where the claim fails: only the first 10000 characters count, and the name that crosses that
border is cut short without a message. -/
theorem C47_long_refuted :
    ¬ ListsItsLines (header ++ '\n' :: List.replicate 10000 'a') := by
  have hh : ∀ c ∈ header, ¬ Newline c := by
    unfold header Newline; decide +kernel
  have hl : header.length = 25 := by unfold header; decide +kernel
  have hne : header ≠ [] := by unfold header; decide +kernel
  have hp : ∀ n, 0 < n →
      Pieces Newline (header ++ '\n' :: List.replicate n 'a') [header, List.replicate n 'a'] := by
    intro n hn
    refine .piece hne hh (.inr rfl) (.last ?_ ?_)
    · rw [Ne, List.replicate_eq_nil_iff]; omega
    · intro c hc
      rw [List.eq_of_mem_replicate hc]
      unfold Newline; decide
  rintro ⟨h1, _⟩
  have h1 := h1 _ (hp 10000 (by decide))
  have ht : (header ++ '\n' :: List.replicate 10000 'a').take 10000 =
      header ++ '\n' :: List.replicate 9974 'a' := by
    rw [List.take_append, hl, List.take_of_length_le (by rw [hl]; decide)]
    rw [show 10000 - 25 = 9974 + 1 by decide, List.take_succ_cons, List.take_replicate]
    rfl
  have hs : (header ++ '\n' :: List.replicate 9974 'a').length ≤ 10000 := by
    rw [List.length_append, List.length_cons, List.length_replicate, hl]; decide
  have h2 := (C47_lines_partial _ hs (.inr ⟨'[', by
      refine List.mem_append.2 (.inl ?_); unfold header; decide +kernel, by
      unfold Newline; decide⟩)).1 _ (hp 9974 (by decide))
  have h3 : ∀ s t : List Char, s.take 10000 = t.take 10000 → manifest s = manifest t := by
    intro s t e; unfold manifest; rw [e]
  rw [h3 _ _ (ht.trans (List.take_of_length_le hs).symm), h2] at h1
  injection h1 with h1
  injection h1 with h1
  injection h1 with h1
  have := congrArg List.length h1
  rw [List.length_replicate, List.length_replicate] at this
  omega

end VS.Plugin
