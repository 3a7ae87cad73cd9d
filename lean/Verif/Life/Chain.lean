import Verif.Life.Bound

/-!
# A chain of filters that do not keep their own references

Helper lemmas for `C38_deep_refuted`.
-/

namespace VS.Life

/-- The `j`th filter of the chain. -/
def link (j : Nat) : Node :=
  { rc := 1, deps := if j = 0 then [] else [j - 1], data := [], hasFree := false, gone := false }

structure Chain (k : Nat) (s : State) : Prop where
  ts : s.ts = [{ stack := [], depth := 0, list := [] }]
  next : s.h.next = k + 1
  node : ∀ j ≤ k, s.h.node j = link j
  ext : 0 < s.h.ext k
  core : s.h.coreFreed = false

theorem chain_zero : ∃ as s, Run 1 as s ∧ Chain 0 s := by
  refine ⟨_, _, .snoc (a := .create [] [] false) .nil rfl, ?_⟩
  refine ⟨rfl, rfl, ?_, by decide, rfl⟩
  intro j hj
  have : j = 0 := by omega
  subst this
  rfl

theorem chain_succ {as : List Action} {s : State} {k : Nat} (hr : Run 1 as s) (hc : Chain k s) :
    ∃ as' s', Run 1 as' s' ∧ Chain (k + 1) s' := by
  obtain ⟨h, ts⟩ := s
  obtain ⟨c1, c2, c3, c4, c5⟩ := hc
  simp only at c1 c2 c3 c4 c5
  subst c1
  have hk := c3 k (Nat.le_refl k)
  -- a filter that depends on the last one
  let s1 : State := ⟨h.create [k] [] false, [⟨[], 0, []⟩]⟩
  have r1 : Run 1 (as ++ [.create [k] [] false]) s1 := by
    refine .snoc hr ?_
    simp only [State.step]
    rw [if_pos]
    refine ⟨c5, ?_, ?_, fun _ => trivial⟩
    · intro d hd; rw [List.mem_singleton.1 hd]; exact c4
    · intro d hd; cases hd
  -- the user gives up the last one
  have hext1 : s1.h.ext k = h.ext k := by
    show (if k = h.next then 1 else h.ext k - _) = _
    rw [if_neg (by omega)]
    rfl
  let s2 : State := ⟨{ s1.h with ext := upd s1.h.ext k (s1.h.ext k - 1) }, [⟨[.rel k], 0, []⟩]⟩
  have r2 : Run 1 (as ++ [.create [k] [] false] ++ [.drop 0 k]) s2 := by
    refine .snoc r1 ?_
    simp only [State.step, s1]
    show (if _ ∧ 0 < s1.h.ext k then _ else _) = _
    rw [if_pos ⟨rfl, by rw [hext1]; exact c4⟩]
    rfl
  have hnode1 : ∀ j ≤ k, s1.h.node j = { link j with rc := 1 + [k].count j } := by
    intro j hj
    have h1 : s1.h.node j = { h.node j with rc := (h.node j).rc + [k].count j } := by
      show (if j = h.next then _ else _) = _
      rw [if_neg (by omega)]
    rw [h1, c3 j hj]
    rfl
  have hk1 : s2.h.node k = { link k with rc := 2 } := by
    show s1.h.node k = _
    rw [hnode1 k (Nat.le_refl k)]
    simp
  let s3 : State := ⟨s2.h.setNode k { s2.h.node k with rc := (s2.h.node k).rc - 1 }, [⟨[], 0, []⟩]⟩
  have r3 : Run 1 (as ++ [.create [k] [] false] ++ [.drop 0 k] ++ [.run 0]) s3 := by
    refine .snoc r2 ?_
    have hst : Thread.step s2.h ⟨[.rel k], 0, []⟩ =
        some (s2.h.setNode k { s2.h.node k with rc := (s2.h.node k).rc - 1 }, ⟨[], 0, []⟩) := by
      simp only [Thread.step]
      rw [if_neg (by rw [hk1]; simp), if_neg (by rw [hk1]; simp)]
    show (match (match Thread.step s2.h ⟨[.rel k], 0, []⟩ with | some (h, t') => _ | none => _) with | x => x) = _
    rw [hst]
    rfl
  refine ⟨_, s3, r3, rfl, ?_, ?_, ?_, ?_⟩
  · show h.next + 1 = _
    omega
  · intro j hj
    show upd s2.h.node k _ j = _
    by_cases e : j = k
    · subst e; rw [upd_self, hk1]; rfl
    · rw [upd_ne _ _ e]
      show s1.h.node j = _
      by_cases e2 : j = k + 1
      · subst e2
        show (if k + 1 = h.next then _ else _) = _
        rw [if_pos c2.symm]
        rfl
      · rw [hnode1 j (by omega), List.count_eq_zero.2 (fun hm => e (List.mem_singleton.1 hm))]
        rfl
  · show 0 < upd s1.h.ext k _ (k + 1)
    rw [upd_ne _ _ (by omega)]
    show 0 < (if k + 1 = h.next then 1 else _)
    rw [if_pos c2.symm]
    decide
  · exact c5

theorem chain_exists : ∀ k, ∃ as s, Run 1 as s ∧ Chain k s
  | 0 => chain_zero
  | k + 1 => by
    obtain ⟨as, s, h1, h2⟩ := chain_exists k
    exact chain_succ h1 h2

/-- While the chain comes apart: the release of filter `j` is about to begin below `m` other calls. -/
theorem unwind {k : Nat} : ∀ (m j : Nat), j + m = k → (∃ as s, Run 1 as s ∧ Chain k s) →
    ∃ as s st, Run 1 as s ∧ s.ts = [⟨.rel j :: st, 0, []⟩] ∧ st.length = m ∧ ∀ i ≤ j, s.h.node i = link i
  | 0, j, hj, hk => by
    obtain ⟨as, s, hr, hc⟩ := hk
    have : j = k := by omega
    subst this
    obtain ⟨h, ts⟩ := s
    obtain ⟨c1, c2, c3, c4, c5⟩ := hc
    simp only at c1 c2 c3 c4 c5
    subst c1
    refine ⟨as ++ [.drop 0 j], ⟨{ h with ext := upd h.ext j (h.ext j - 1) }, [⟨[.rel j], 0, []⟩]⟩, [], .snoc hr ?_, rfl,
      rfl, c3⟩
    simp only [State.step]
    show (if _ ∧ 0 < h.ext j then _ else _) = _
    rw [if_pos ⟨rfl, c4⟩]
    rfl
  | m + 1, j, hj, hk => by
    obtain ⟨as, s, st, hr, hts, hlen, hnode⟩ := unwind m (j + 1) (by omega) hk
    obtain ⟨h, ts⟩ := s
    simp only at hts hnode
    subst hts
    have hn := hnode (j + 1) (Nat.le_refl _)
    let h1 : Heap := (h.setNode (j + 1) { h.node (j + 1) with rc := 0, deps := [] }).touch
    have hst1 : Thread.step h ⟨.rel (j + 1) :: st, 0, []⟩ = some (h1, ⟨.dtor (j + 1) [j] :: st, 0, []⟩) := by
      simp only [Thread.step]
      rw [if_neg (by rw [hn]; simp [link]), if_pos (by rw [hn]; rfl)]
      have : (h.node (j + 1)).deps = [j] := by rw [hn]; simp [link]
      rw [this]
    have r1 : Run 1 (as ++ [.run 0]) ⟨h1, [⟨.dtor (j + 1) [j] :: st, 0, []⟩]⟩ := by
      refine .snoc hr ?_
      show (match Thread.step h ⟨.rel (j + 1) :: st, 0, []⟩ with | some (h, t') => _ | none => _) = _
      rw [hst1]
      rfl
    refine ⟨as ++ [.run 0] ++ [.run 0], ⟨h1, [⟨.rel j :: .dtor (j + 1) [] :: st, 0, []⟩]⟩, .dtor (j + 1) [] :: st,
      .snoc r1 rfl, rfl, ?_, ?_⟩
    · simp only [List.length_cons]
      omega
    · intro i hi
      show h1.node i = _
      have : h1.node = upd h.node (j + 1) { h.node (j + 1) with rc := 0, deps := [] } := touch_node _
      rw [this, upd_ne _ _ (by omega)]
      exact hnode i (by omega)

end VS.Life
