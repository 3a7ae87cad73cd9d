import Verif.Plugin.Lemmas

/-!
# Lines of a manifest
-/

namespace VS.Plugin
open VS VS.Plugin.Spec

theorem findNewline_none {s : List Char} {p : Nat} (h : findNewline s p = none) :
    ∀ c ∈ s.drop p, ¬ Newline c := by
  unfold findNewline at h
  split at h
  · cases h
  · next e =>
    intro c hc hn
    have := List.findIdx?_eq_none_iff.1 e c hc
    simp only [decide_eq_false_iff_not] at this
    exact this hn

theorem findNewline_some {s : List Char} {p q : Nat} (h : findNewline s p = some q) :
    p ≤ q ∧ ∃ h : q < s.length, Newline s[q] ∧ ∀ c ∈ (s.drop p).take (q - p), ¬ Newline c := by
  unfold findNewline at h
  split at h
  · next i e =>
    injection h with h
    subst h
    obtain ⟨hi, h1, h2⟩ := List.findIdx?_eq_some_iff_getElem.1 e
    rw [List.length_drop] at hi
    refine ⟨by omega, by omega, ?_, ?_⟩
    · rw [List.getElem_drop] at h1
      simpa [Newline] using h1
    · intro c hc hn
      rw [show p + i - p = i by omega] at hc
      obtain ⟨j, hj, rfl⟩ := List.getElem_of_mem hc
      rw [List.length_take, List.length_drop] at hj
      rw [List.getElem_take] at hn
      have := h2 j (by omega)
      simp only [decide_eq_true_eq] at this
      exact this hn
  · cases h

theorem findText_none {s : List Char} {p : Nat} (h : findText s p = none) :
    ∀ c ∈ s.drop p, Newline c := by
  unfold findText at h
  split at h
  · cases h
  · next e =>
    intro c hc
    have := List.findIdx?_eq_none_iff.1 e c hc
    simp only [Newline]
    exact Decidable.byContradiction (fun hn => by simp [hn] at this)

theorem findText_some {s : List Char} {p q : Nat} (h : findText s p = some q) :
    p ≤ q ∧ ∃ h : q < s.length, ¬ Newline s[q] ∧ ∀ c ∈ (s.drop p).take (q - p), Newline c := by
  unfold findText at h
  split at h
  · next i e =>
    injection h with h
    subst h
    obtain ⟨hi, h1, h2⟩ := List.findIdx?_eq_some_iff_getElem.1 e
    rw [List.length_drop] at hi
    refine ⟨by omega, by omega, ?_, ?_⟩
    · rw [List.getElem_drop] at h1
      simpa [Newline] using h1
    · intro c hc
      rw [show p + i - p = i by omega] at hc
      obtain ⟨j, hj, rfl⟩ := List.getElem_of_mem hc
      rw [List.length_take, List.length_drop] at hj
      rw [List.getElem_take]
      have := h2 j (by omega)
      exact Decidable.byContradiction (p := _ ∨ _) (fun hn => this (by simpa using hn))
  · cases h

/-- Leading newlines do not matter. -/
theorem pieces_skip {sep : Char → Prop} : ∀ {a b : List Char} {ps : List (List Char)},
    (∀ c ∈ a, sep c) → Pieces sep b ps → Pieces sep (a ++ b) ps
  | [], _, _, _, h => h
  | x :: _, _, _, hs, h =>
    .skip (hs x (List.mem_cons_self ..))
      (pieces_skip (fun c hc => hs c (List.mem_cons_of_mem _ hc)) h)

theorem drop_split (s : List Char) {p q : Nat} (h : p ≤ q) :
    s.drop p = (s.drop p).take (q - p) ++ s.drop q := by
  have := (List.take_append_drop (q - p) (s.drop p)).symm
  rwa [List.drop_drop, show p + (q - p) = q by omega] at this

/-- The loop from the start of a line. -/
theorem manifestLoop_pieces {s : List Char} : ∀ (fuel l : Nat) (hl : l < s.length),
    ¬ Newline s[l] → s.length - l < fuel →
    ∃ ps, manifestLoop s fuel (some l) (findNewline s l) = .ok ps ∧
      Pieces Newline (s.drop l) ps
  | 0, l, hl, _, hf => by omega
  | fuel + 1, l, hl, hn, hf => by
    have hd : s.drop l = s[l] :: s.drop (l + 1) := List.drop_eq_getElem_cons hl
    cases hp : findNewline s l with
    | none =>
      refine ⟨[s.drop l], rfl, .last (by rw [hd]; exact List.cons_ne_nil _ _) (findNewline_none hp)⟩
    | some q =>
      obtain ⟨h1, hq, h2, h3⟩ := findNewline_some hp
      have hlq : l < q := by
        rcases Nat.lt_or_ge l q with h | h
        · exact h
        · have : l = q := by omega
          subst this
          exact absurd h2 hn
      have hne : (s.drop l).take (q - l) ≠ [] := by
        rw [hd, show q - l = (q - l - 1) + 1 by omega]
        rw [List.take_succ_cons]
        exact List.cons_ne_nil _ _
      have hs : s.drop l = (s.drop l).take (q - l) ++ s[q] :: s.drop (q + 1) := by
        have := drop_split s h1
        rwa [List.drop_eq_getElem_cons hq] at this
      have hrest : ∃ ps, manifestLoop s fuel (findText s (q + 1))
          ((findText s (q + 1)).bind (findNewline s)) = .ok ps ∧
          Pieces Newline (s.drop (q + 1)) ps := by
        cases ht : findText s (q + 1) with
        | none =>
          cases fuel with
          | zero => omega
          | succ f =>
            refine ⟨[], rfl, ?_⟩
            have := pieces_skip (findText_none ht) Pieces.nil
            rwa [List.append_nil] at this
        | some l' =>
          obtain ⟨g1, hl', g2, g3⟩ := findText_some ht
          obtain ⟨ps, k1, k2⟩ := manifestLoop_pieces fuel l' hl' g2 (by omega)
          refine ⟨ps, k1, ?_⟩
          rw [drop_split s g1]
          exact pieces_skip g3 k2
      obtain ⟨ps, k1, k2⟩ := hrest
      refine ⟨(s.drop l).take (q - l) :: ps, ?_, ?_⟩
      · show (manifestLoop s fuel (findText s (q + 1))
          ((findText s (q + 1)).bind (findNewline s)) >>= fun r =>
            Res.ok ((s.drop l).take (q - l) :: r)) = _
        rw [k1, Res.bind_ok]
      · have h := Pieces.piece hne h3 h2 k2
        rwa [← hs] at h

theorem findNewline_succ {s : List Char} {l : Nat} (hl : l < s.length) (hn : ¬ Newline s[l]) :
    findNewline s (l + 1) = findNewline s l := by
  unfold findNewline
  rw [List.drop_eq_getElem_cons hl, List.findIdx?_cons]
  rw [if_neg (by simpa [Newline] using hn)]
  cases List.findIdx? _ (s.drop (l + 1)) with
  | none => rfl
  | some i => simp only [Option.map_some]; congr 1; omega

theorem manifestLines_pieces {s : List Char} (h : ∃ c ∈ s, ¬ Newline c) :
    ∃ ps, manifestLines s = .ok ps ∧ Pieces Newline s ps ∧ ps ≠ [] := by
  unfold manifestLines
  cases ht : findText s 0 with
  | none =>
    obtain ⟨c, hc, hn⟩ := h
    exact absurd (findText_none ht c (by rwa [List.drop_zero])) hn
  | some l =>
    obtain ⟨_, hl, h2, h3⟩ := findText_some ht
    obtain ⟨ps, k1, k2⟩ := manifestLoop_pieces (s.length + 1) l hl h2 (by omega)
    simp only
    rw [findNewline_succ hl h2]
    refine ⟨ps, k1, ?_, ?_⟩
    · have := drop_split s (Nat.zero_le l)
      rw [List.drop_zero] at this
      rw [this]
      rw [List.drop_zero] at h3
      exact pieces_skip h3 k2
    · intro e
      subst e
      have hcl : ∀ {t : List Char} {qs : List (List Char)}, Pieces Newline t qs → qs = [] →
          ∀ c ∈ t, Newline c := by
        intro t qs hp
        induction hp with
        | nil => intro _ c hc; cases hc
        | skip hs _ ih =>
          intro e c hc
          rcases List.mem_cons.1 hc with rfl | hc
          · exact hs
          · exact ih e c hc
        | last _ _ => intro e; cases e
        | piece _ _ _ _ => intro e; cases e
      refine h2 (hcl k2 rfl _ ?_)
      rw [List.drop_eq_getElem_cons hl]
      exact List.mem_cons_self ..

theorem manifestLines_newlines {s : List Char} (h : ∀ c ∈ s, Newline c) (hne : s ≠ []) :
    ∃ m, manifestLines s = .fatal m := by
  unfold manifestLines
  cases ht : findText s 0 with
  | some l =>
    obtain ⟨_, hl, h2, _⟩ := findText_some ht
    exact absurd (h _ (List.getElem_mem hl)) h2
  | none =>
    cases hp : findNewline s 0 with
    | none =>
      have := findNewline_none hp
      rw [List.drop_zero] at this
      cases s with
      | nil => exact absurd rfl hne
      | cons a t =>
        exact absurd (h a (List.mem_cons_self ..)) (this a (List.mem_cons_self ..))
    | some q => exact ⟨_, rfl⟩

end VS.Plugin
