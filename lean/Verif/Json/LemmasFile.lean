import Verif.Json.LemmasMeans

/-!
# The whole map, the whole file
-/

namespace VS.Json
open VS VS.Map

theorem convert_good {fixed : Nat → List Nat} {ops : List Op} {w : World} {s : Spec.State} (h : Leads ops w s) {m : Nat}
    {d : Spec.Dict} (hm : s[m]? = some (some d)) (hp : Plain fixed d) :
    ∃ t v, convertMap fixed w m = .ok t ∧ Reads t v ∧ 0 ∉ t ∧ Describes fixed d v := by
  obtain ⟨ks, hsort, hmem, hnum, hkey, -⟩ := C01_keys_enumerated ops w s m d h hm
  have hs := h.sim
  have hex : ∀ k, ∃ p : List Val × Json, k ∈ ks → (∃ ty, d.get k = some (ty, p.1)) ∧ Shows fixed p.1 p.2 := by
    intro k
    by_cases hk : k ∈ ks
    · cases hg : d.get k with
      | none => exact absurd hg ((hmem k).1 hk)
      | some e =>
        obtain ⟨ty, vs⟩ := e
        obtain ⟨j, hj⟩ := hp.values k ty vs hg
        exact ⟨(vs, j), fun _ => ⟨⟨ty, rfl⟩, hj⟩⟩
    · exact ⟨([], .null), fun hk' => absurd hk' hk⟩
  have hcho := Classical.axiomOfChoice hex
  obtain ⟨f, hf⟩ := hcho
  have hne : ∀ k ∈ ks, k ≠ "_ColorRange" := by
    intro k hk e
    subst e
    exact (hmem _).1 hk hp.range
  have hval : ∀ k ∈ ks, valueText fixed w m k = .ok (entryText fixed (f k).1) := by
    intro k hk
    obtain ⟨⟨ty, hg⟩, hsh⟩ := hf k hk
    exact valueText_eq hs hm hp.err k (hne k hk) hg (shows_good hsh).1
  have hkt := keysText_eq ks (fun k => entryText fixed (f k).1) hkey hval ks [] rfl
  rw [List.length_nil, if_pos rfl] at hkt
  let l : List Member := ks.map (fun k => Member.mk (keyBytes k) (entryText fixed (f k).1) (f k).2)
  have hl : ∀ p ∈ l, IsUtf8 p.key ∧ Reads p.text p.value := by
    intro p hp
    obtain ⟨k, hk, rfl⟩ := List.mem_map.1 hp
    exact ⟨keyBytes_utf8 k, (shows_good (hf k hk).2).2.1⟩
  have hobj := reads_obj l hl
  refine ⟨_, _, ?_, hobj, ?_, ?_⟩
  · unfold convertMap
    rw [hnum, Res.bind_ok, hkt, Res.bind_ok, List.map_map]
    rfl
  · intro h0
    rcases List.mem_append.1 h0 with h0 | h0
    rcases List.mem_append.1 h0 with h0 | h0
    · revert h0; decide +kernel
    · refine join_nonzero ?_ h0
      intro t ht
      obtain ⟨p, hp, rfl⟩ := List.mem_map.1 ht
      obtain ⟨k, hk, rfl⟩ := List.mem_map.1 hp
      unfold memberText
      intro h0
      rcases List.mem_append.1 h0 with h0 | h0
      rcases List.mem_append.1 h0 with h0 | h0
      · exact escapeString_nonzero _ h0
      · revert h0; decide +kernel
      · exact (shows_good (hf k hk).2).2.2 h0
    · revert h0; decide +kernel
  · refine ⟨ks.map (fun k => (k, (f k).2)), ?_, ?_, ?_, ?_⟩
    · simp [l]
    · simpa [Function.comp_def] using hsort
    · intro k
      rw [← hmem k]
      constructor
      · rintro ⟨j, hj⟩
        obtain ⟨k', hk', e⟩ := List.mem_map.1 hj
        injection e with e1 _
        rw [← e1]; exact hk'
      · intro hk
        exact ⟨_, List.mem_map.2 ⟨k, hk, rfl⟩⟩
    · intro k j hj
      obtain ⟨k', hk', e⟩ := List.mem_map.1 hj
      injection e with e1 e2
      subst e1 e2
      obtain ⟨⟨ty, hg⟩, hsh⟩ := hf k' hk'
      exact ⟨ty, _, hg, hsh⟩

theorem elements_tab (n : Nat) (t : List Nat) : elements n (9 :: t) = elements n t := elements_ws n 9 t (by decide)

theorem lines_read (N : Nat) (q : List (List Nat × Json)) : ∀ (i : Nat) (p : List Nat × Json), i + q.length + 1 = N →
    (∀ x ∈ p :: q, Reads x.1 x.2 ∧ 0 ∉ x.1) → ∀ (n : Nat) (r : List Nat),
    2 * (frameLines N i ((p :: q).map (·.1))).length + 3 ≤ n →
    elements n (frameLines N i ((p :: q).map (·.1)) ++ 93 :: r) = some ((p :: q).map (·.2), r) := by
  induction q with
  | nil =>
    intro i p hi hp n r hn
    obtain ⟨hr, h0⟩ := hp p (by simp)
    cases n with
    | zero => omega
    | succ n =>
      have e : frameLines N i ([p].map (·.1)) ++ 93 :: r = 9 :: (p.1 ++ 10 :: 93 :: r) := by
        have : N = i + 1 := by simpa using hi.symm
        simp only [List.map_cons, List.map_nil, frameLines, frameLine, takeWhile_all h0, this, List.append_nil]
        rw [if_neg (by simp), show asc "\t" = [9] by decide, show asc "\n" = [10] by decide]
        simp
      have el : (frameLines N i ([p].map (·.1))).length = p.1.length + 2 := by
        have := congrArg List.length e
        simp at this ⊢
        omega
      rw [el] at hn
      rw [e, elements_tab, elements, hr n _ (by omega) (.inr (.inr (.inr (.inr rfl))))]
      rfl
  | cons p' q ih =>
    intro i p hi hp n r hn
    obtain ⟨hr, h0⟩ := hp p (by simp)
    cases n with
    | zero => omega
    | succ n =>
      have e : ∀ r', frameLines N i ((p :: p' :: q).map (·.1)) ++ r' =
          9 :: (p.1 ++ 44 :: 10 :: (frameLines N (i + 1) ((p' :: q).map (·.1)) ++ r')) := by
        intro r'
        have : N ≠ i + 1 := by simp at hi; omega
        rw [List.map_cons, frameLines, frameLine, takeWhile_all h0, if_pos this, show asc "\t" = [9] by decide,
          show asc "\n" = [10] by decide, show asc "," = [44] by decide]
        simp
      have el : (frameLines N i ((p :: p' :: q).map (·.1))).length = p.1.length + 3 + (frameLines N (i + 1) ((p' :: q).map (·.1))).length := by
        have := congrArg List.length (e [])
        simp only [List.append_nil, List.length_cons, List.length_append] at this
        omega
      rw [el] at hn
      obtain ⟨h1, h2⟩ := Ends.skip (r := 10 :: (frameLines N (i + 1) ((p' :: q).map (·.1)) ++ 93 :: r)) 44 (by simp)
      rw [e, elements_tab, elements, hr n _ (by omega) h1]
      simp only [Option.bind_eq_bind, Option.bind_some, h2, List.head?_cons, if_true, List.tail_cons]
      rw [elements_ws _ _ _ (by decide), ih (i + 1) p' (by simp at hi ⊢; omega) (fun x hx => hp x (List.mem_cons_of_mem _ hx)) n r (by omega)]
      rfl

theorem file_read (q : List (List Nat × Json)) (hq : ∀ x ∈ q, Reads x.1 x.2 ∧ 0 ∉ x.1)
    (hb : ∀ x ∈ q, ∃ c r, x.1 = c :: r ∧ isWs c = false ∧ c ≠ 93 ∧ c ≠ 0) :
    parse (fileText true (q.map (·.1))) = some (.arr (q.map (·.2))) := by
  have h91 : isWs 91 = false := by decide
  cases q with
  | nil => rfl
  | cons p q =>
    have e : fileText true ((p :: q).map (·.1)) =
        91 :: 10 :: (frameLines ((p :: q).map (·.1)).length 0 ((p :: q).map (·.1)) ++ 93 :: [10]) := by
      unfold fileText
      rw [if_pos rfl, if_pos rfl, show asc "[\n" = [91, 10] by decide, show asc "]\n" = [93, 10] by decide]
      simp
    obtain ⟨c, r, hc, hws, h93, hc0⟩ := hb p (by simp)
    have hh : (skip (10 :: (frameLines ((p :: q).map (·.1)).length 0 ((p :: q).map (·.1)) ++ 93 :: [10]))).head? = some c := by
      rw [List.map_cons, frameLines, frameLine, show asc "\t" = [9] by decide, hc]
      have ht : (c :: r).takeWhile (fun x => decide (x ≠ 0)) = c :: r.takeWhile (fun x => decide (x ≠ 0)) := by
        simp [hc0]
      rw [ht]
      simp only [List.cons_append, List.append_assoc, List.nil_append]
      unfold skip
      rw [List.dropWhile_cons_of_pos (by decide), List.dropWhile_cons_of_pos (by decide),
        List.dropWhile_cons_of_neg (by simp [hws])]
      rfl
    unfold parse
    rw [e]
    generalize hn : 2 * (91 :: 10 :: (frameLines ((p :: q).map (·.1)).length 0 ((p :: q).map (·.1)) ++ 93 :: [10])).length + 1 = n
    cases n with
    | zero => omega
    | succ n =>
      rw [value]
      simp only [skip_cons _ h91, List.head?_cons, List.tail_cons]
      rw [if_neg (by decide), if_pos trivial, if_neg (by rw [hh]; simpa using h93), elements_ws _ _ _ (by decide)]
      rw [lines_read _ q 0 p (by simp) hq n [10] (by
        simp only [List.length_cons, List.length_append] at hn
        omega)]
      rfl

theorem convert_head {fixed : Nat → List Nat} {w : World} {m : Nat} {t : List Nat} (h : convertMap fixed w m = .ok t) :
    ∃ c r, t = c :: r ∧ isWs c = false ∧ c ≠ 93 ∧ c ≠ 0 := by
  unfold convertMap at h
  cases h1 : mapNumKeys w m with
  | ok n =>
    rw [h1, Res.bind_ok] at h
    cases h2 : keysText fixed w m 0 n with
    | ok u =>
      rw [h2, Res.bind_ok] at h
      injection h with h
      exact ⟨123, _, by rw [← h]; rfl, by decide, by decide, by decide⟩
    | err e => rw [h2] at h; cases h
    | fatal e => rw [h2] at h; cases h
    | ub => rw [h2] at h; cases h
  | err e => rw [h1] at h; cases h
  | fatal e => rw [h1] at h; cases h
  | ub => rw [h1] at h; cases h

theorem convertMaps_good {fixed : Nat → List Nat} {ops : List Op} {w : World} {s : Spec.State} (h : Leads ops w s)
    (ms : List Nat) (hms : ∀ m ∈ ms, ∃ d, s[m]? = some (some d) ∧ Plain fixed d) :
    ∃ q : List (List Nat × Json), convertMaps fixed w ms = .ok (q.map (·.1)) ∧ (∀ x ∈ q, Reads x.1 x.2 ∧ 0 ∉ x.1) ∧
      (∀ x ∈ q, ∃ c r, x.1 = c :: r ∧ isWs c = false ∧ c ≠ 93 ∧ c ≠ 0) ∧ q.length = ms.length ∧
      ∀ (i m : Nat) (v : Json), ms[i]? = some m → (q.map (·.2))[i]? = some v →
        ∃ d, s[m]? = some (some d) ∧ Describes fixed d v := by
  induction ms with
  | nil => exact ⟨[], rfl, by simp, by simp, rfl, by simp⟩
  | cons m ms ih =>
    obtain ⟨q, h1, h2, h3, h4, h5⟩ := ih (fun x hx => hms x (by simp [hx]))
    obtain ⟨d, hd, hp⟩ := hms m (by simp)
    obtain ⟨t, v, e1, e2, e3, e4⟩ := convert_good h hd hp
    refine ⟨(t, v) :: q, ?_, ?_, ?_, by simp [h4], ?_⟩
    · rw [convertMaps, e1, Res.bind_ok, h1, Res.bind_ok]; rfl
    · intro x hx
      rcases List.mem_cons.1 hx with hx | hx
      · subst hx; exact ⟨e2, e3⟩
      · exact h2 x hx
    · intro x hx
      rcases List.mem_cons.1 hx with hx | hx
      · subst hx; exact convert_head e1
      · exact h3 x hx
    · intro i m' v' hi hv
      cases i with
      | zero =>
        simp at hi hv
        subst hi hv
        exact ⟨d, hd, e4⟩
      | succ i =>
        exact h5 i m' v' (by simpa using hi) (by simpa using hv)

end VS.Json
