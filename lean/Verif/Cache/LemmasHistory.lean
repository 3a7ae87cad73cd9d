import Verif.Cache.LemmasStep
import Verif.Cache.Spec

/-!
# The cache over whole histories
-/

namespace VS.Cache
open VS

/-- Every cached frame is the stored one. -/
def Agree (m : Int → Option Frame) (fs : List (Int × Frame)) : Prop :=
  ∀ k f, (k, f) ∈ fs → m k = some f

theorem Agree.mono {m} {fs fs' : List (Int × Frame)} (h : Agree m fs) (p : fs' <+: fs) :
    Agree m fs' := fun k f hm => h k f (p.subset hm)

theorem next_agree {c fs hs op o fs' hs'} (n : Next c fs hs op o fs' hs')
    {m} (h : Agree m fs) : Agree (Spec.store m op) fs' := by
  cases n with
  | insert k f hs' t =>
    refine Agree.mono ?_ (List.take_prefix _ _)
    intro x g hm
    simp only [Spec.store]
    rw [List.mem_cons] at hm
    rcases hm with hm | hm
    · cases hm; simp
    · rw [List.mem_filter] at hm
      have : x ≠ k := by simpa using hm.2
      rw [if_neg this]
      exact h x g hm.1
  | hit a k f b e =>
    subst e
    intro x g hm
    apply h
    simp only [List.mem_cons, List.mem_append] at hm ⊢
    rcases hm with hm | hm | hm
    · exact Or.inr (Or.inl hm)
    · exact Or.inl hm
    · exact Or.inr (Or.inr hm)
  | miss k e => exact h
  | clear => intro x g hm; cases hm
  | other op fs' hs' h1 h2 h3 t =>
    have : Spec.store m op = m := by
      cases op <;> first | rfl | exact absurd rfl (h1 _ _) | exact absurd rfl h3
    rw [this]
    exact h.mono t.1

theorem next_out {c fs hs k o fs' hs'} (n : Next c fs hs (.lookup k) o fs' hs') :
    (∃ f, o = some f ∧ (k, f) ∈ fs) ∨ (o = none ∧ k ∉ fs.map (·.1)) := by
  cases n with
  | hit a k f b e => exact Or.inl ⟨f, rfl, by rw [e]; simp⟩
  | miss k e => exact Or.inr ⟨rfl, e⟩
  | other op fs' hs' h1 h2 h3 t => exact absurd rfl (h2 k)

theorem filter_prefix {α} (p : α → Bool) {a b : List α} (h : a <+: b) :
    a.filter p <+: b.filter p := h.filter p

theorem filter_fst (fs : List (Int × Frame)) (k : Int) :
    (fs.filter (fun p => p.1 ≠ k)).map (·.1) = (fs.map (·.1)).filter (· ≠ k) := by
  rw [List.filter_map]; rfl

theorem next_recency {c fs hs op o fs' hs'} (n : Next c fs hs op o fs' hs')
    (nd : (fs.map (·.1) ++ hs).Nodup) {l : List Int} (h : (fs.map (·.1) ++ hs) <+: l) :
    (fs'.map (·.1) ++ hs') <+: Spec.use l (op, o) := by
  cases n with
  | insert k f hs' t =>
    refine t.2.trans ?_
    simp only [Spec.use, List.map_cons, List.cons_append, filter_fst]
    rw [← List.filter_append]
    exact (List.cons_prefix_cons).2 ⟨rfl, h.filter _⟩
  | hit a k f b e =>
    subst e
    simp only [Spec.use, List.map_cons, List.cons_append]
    refine (List.cons_prefix_cons).2 ⟨rfl, ?_⟩
    have h2 := h.filter (· ≠ k)
    have : ((a ++ (k, f) :: b).map (·.1) ++ hs).filter (· ≠ k) = (a ++ b).map (·.1) ++ hs := by
      simp only [List.map_append, List.map_cons, List.append_assoc, List.cons_append] at nd ⊢
      rw [List.filter_append, List.filter_cons]
      simp only [ne_eq, not_true, decide_false]
      rw [List.nodup_append, List.nodup_cons] at nd
      congr 1
      · rw [List.filter_eq_self]
        intro x hx
        have : x ≠ k := nd.2.2 x hx k (by simp)
        simpa using this
      · simp only [Bool.false_eq_true, if_false, List.filter_eq_self]
        intro x hx
        have : x ≠ k := by rintro rfl; exact nd.2.1.1 hx
        simpa using this
    rw [this] at h2
    exact h2
  | miss k e => simpa [Spec.use] using h
  | clear => simp
  | other op fs' hs' h1 h2 h3 t =>
    have : Spec.use l (op, none) = l := by
      cases op <;> first | rfl | exact absurd rfl (h1 _ _)
    rw [this]
    exact t.2.trans h

/-- The state after a history, together with the two lists. -/
theorem run_inv : ∀ (ops : List Op) (c : Cache) (fs hs), Inv c fs hs → ∀ c' outs,
    run c ops = .ok (c', outs) → ∃ fs' hs', Inv c' fs' hs' ∧
      (∀ m, Agree m fs → Agree (ops.foldl Spec.store m) fs') ∧
      (∀ l, (fs.map (·.1) ++ hs) <+: l →
        (fs'.map (·.1) ++ hs') <+: (ops.zip outs).foldl Spec.use l) ∧ outs.length = ops.length := by
  intro ops
  induction ops with
  | nil =>
    intro c fs hs i c' outs h
    simp only [run, Res.ok.injEq, Prod.mk.injEq] at h
    obtain ⟨rfl, rfl⟩ := h
    exact ⟨fs, hs, i, fun m h => h, fun l h => h, rfl⟩
  | cons op t ih =>
    intro c fs hs i c' outs h
    have hs1 := step_inv op i
    simp only [run] at h
    generalize step c op = r at hs1 h
    cases hs1 with
    | big => cases h
    | ok c1 o fs1 hs1 i1 n =>
      simp only [Res.bind_ok] at h
      cases h2 : run c1 t with
      | ok q =>
        rw [h2] at h
        simp only [Res.bind_ok, Res.ok.injEq, Prod.mk.injEq] at h
        obtain ⟨rfl, rfl⟩ := h
        obtain ⟨fs', hs', i', g1, g2, g3⟩ := ih c1 fs1 hs1 i1 q.1 q.2 h2
        refine ⟨fs', hs', i', fun m hm => g1 _ (next_agree n hm), fun l hl => ?_, by simp [g3]⟩
        exact g2 _ (next_recency n i.rep.nd hl)
      | err m => rw [h2] at h; cases h
      | fatal m => rw [h2] at h; cases h
      | ub => rw [h2] at h; cases h

/-- Histories can be cut in two. -/
theorem run_append (c : Cache) : ∀ (a b : List Op) (c' : Cache) (outs : List (Option Frame)),
    run c (a ++ b) = .ok (c', outs) → ∃ c1 o1 o2, run c a = .ok (c1, o1) ∧
      run c1 b = .ok (c', o2) ∧ outs = o1 ++ o2 := by
  intro a
  induction a generalizing c with
  | nil => intro b c' outs h; exact ⟨c, [], outs, rfl, h, rfl⟩
  | cons op a ih =>
    intro b c' outs h
    simp only [List.cons_append, run] at h ⊢
    cases hs : step c op with
    | ok p =>
      rw [hs] at h
      simp only [Res.bind_ok] at h ⊢
      cases h2 : run p.1 (a ++ b) with
      | ok q =>
        rw [h2] at h
        simp only [Res.bind_ok, Res.ok.injEq, Prod.mk.injEq] at h
        obtain ⟨rfl, rfl⟩ := h
        obtain ⟨c1, o1, o2, e1, e2, e3⟩ := ih p.1 b q.1 q.2 h2
        exact ⟨c1, p.2 :: o1, o2, by rw [e1]; rfl, e2, by rw [e3]; rfl⟩
      | err m => rw [h2] at h; cases h
      | fatal m => rw [h2] at h; cases h
      | ub => rw [h2] at h; cases h
    | err m => rw [hs] at h; cases h
    | fatal m => rw [hs] at h; cases h
    | ub => rw [hs] at h; cases h

theorem run_length (ops : List Op) (c : Cache) (c' outs) (h : run c ops = .ok (c', outs)) :
    outs.length = ops.length := by
  induction ops generalizing c c' outs with
  | nil => simp only [run, Res.ok.injEq, Prod.mk.injEq] at h; simp [← h.2]
  | cons op t ih =>
    simp only [run] at h
    cases hs : step c op with
    | ok p =>
      rw [hs] at h
      simp only [Res.bind_ok] at h
      cases h2 : run p.1 t with
      | ok q =>
        rw [h2] at h
        simp only [Res.bind_ok, Res.ok.injEq, Prod.mk.injEq] at h
        obtain ⟨rfl, rfl⟩ := h
        simp [ih _ _ _ h2]
      | err m => rw [h2] at h; cases h
      | fatal m => rw [h2] at h; cases h
      | ub => rw [h2] at h; cases h
    | err m => rw [hs] at h; cases h
    | fatal m => rw [hs] at h; cases h
    | ub => rw [hs] at h; cases h

/-! ## Exactness for stores and lookups -/

theorem take_filter_ne {m : Nat} {k : Int} : ∀ {l : List Int}, l.Nodup →
    ((l.take (m + 1)).filter (· ≠ k)).take m = (l.filter (· ≠ k)).take m := by
  induction m with
  | zero => intro l h; simp
  | succ m ih =>
    intro l h
    cases l with
    | nil => rfl
    | cons x l =>
      rw [List.nodup_cons] at h
      by_cases e : x = k
      · subst e
        have hl : l.filter (· ≠ x) = l := by
          rw [List.filter_eq_self]; intro y hy
          have : y ≠ x := by rintro rfl; exact h.1 hy
          simpa using this
        have hl2 : (l.take (m + 1)).filter (· ≠ x) = l.take (m + 1) := by
          rw [List.filter_eq_self]; intro y hy
          have : y ≠ x := by rintro rfl; exact h.1 (List.mem_of_mem_take hy)
          simpa using this
        rw [List.take_succ_cons, List.filter_cons, List.filter_cons]
        simp only [ne_eq, not_true, decide_false, Bool.false_eq_true, if_false]
        have hl' : List.filter (fun y => !decide (y = x)) l = l := by simpa using hl
        have hl2' : List.filter (fun y => !decide (y = x)) (l.take (m + 1)) = l.take (m + 1) := by
          simpa using hl2
        simp only [decide_not, hl', hl2', List.take_take]
        congr 1; omega
      · rw [List.take_succ_cons, List.filter_cons, List.filter_cons]
        simp only [ne_eq, e, not_false_eq_true, decide_true, if_true, List.take_succ_cons]
        rw [← ih h.2]

theorem nodup_use {l : List Int} (h : l.Nodup) (p : Op × Option Frame) :
    (Spec.use l p).Nodup := by
  have : ∀ k, (k :: l.filter (· ≠ k)).Nodup := by
    intro k
    rw [List.nodup_cons]
    refine ⟨by simp, h.filter _⟩
  obtain ⟨op, o⟩ := p
  cases op <;> cases o <;> first | exact h | exact this _

theorem foldl_snoc {α β} (f : β → α → β) (b : β) (l : List α) (x : α) :
    (l ++ [x]).foldl f b = f (l.foldl f b) x := by simp

/-- The frames held are exactly the most recent ones, so a lookup answers like the ideal cache. -/
theorem run_ideal : ∀ (ops : List Op) (c : Cache) (fs hs) (past : List (Op × Option Frame)),
    (∀ op ∈ ops, Spec.plain op = true) → Inv c fs hs →
    fs.map (·.1) = (Spec.recency past).take c.maxSize.toNat → (Spec.recency past).Nodup →
    Agree (Spec.stored (past.map (·.1))) fs →
    ∃ c', run c ops = .ok (c', Spec.ideal c.maxSize.toNat past ops) ∧ c'.maxSize = c.maxSize := by
  intro ops
  induction ops with
  | nil => intro c fs hs past _ i _ _ _; exact ⟨c, rfl, rfl⟩
  | cons op t ih =>
    intro c fs hs past hp i hk hnd ha
    have hop := hp op (by simp)
    have hpt : ∀ op ∈ t, Spec.plain op = true := fun o ho => hp o (List.mem_cons_of_mem _ ho)
    cases op with
    | insert k f =>
      obtain ⟨c', hs', e, i', tr, s⟩ := insert_inv k f i
      have hsm := s.maxSize
      refine Exists.elim (ih c' _ hs' (past ++ [(.insert k f, none)]) hpt i' ?_ ?_ ?_) ?_
      · rw [hsm]
        simp only [Spec.recency, foldl_snoc, Spec.use]
        rw [List.map_take, List.map_cons, filter_fst, hk]
        cases hm : c.maxSize.toNat with
        | zero => simp
        | succ m =>
          simp only [List.take_succ_cons]
          congr 1
          exact take_filter_ne hnd
      · simp only [Spec.recency, foldl_snoc]
        exact nodup_use hnd _
      · simp only [Spec.stored, List.map_append, List.map_cons, List.map_nil, foldl_snoc]
        exact next_agree (.insert k f hs' tr) ha
      · rintro c2 ⟨e2, e3⟩
        refine ⟨c2, ?_, by rw [e3, hsm]⟩
        rw [hsm] at e2
        simp only [run, step, e, Res.bind_ok, e2, Spec.ideal]
    | lookup k =>
      rcases lookup_inv k i with ⟨a, f, b, c', rfl, e, i', s⟩ | ⟨hnot, c', e, i', hm, -⟩
      · have hsm := s.maxSize
        simp only at hsm
        have hin : k ∈ (Spec.recency past).take c.maxSize.toNat := by rw [← hk]; simp
        have hst : Spec.stored (past.map (·.1)) k = some f := ha k f (by simp)
        refine Exists.elim (ih c' _ hs (past ++ [(.lookup k, some f)]) hpt i' ?_ ?_ ?_) ?_
        · rw [hsm]
          simp only [Spec.recency, foldl_snoc, Spec.use]
          have hnd2 := i.rep.nd
          rw [List.nodup_append] at hnd2
          have hnd3 := hnd2.1
          have hf : ((a ++ (k, f) :: b).map (·.1)).filter (· ≠ k) = (a ++ b).map (·.1) := by
            simp only [List.map_append, List.map_cons] at hnd3 ⊢
            rw [List.nodup_append, List.nodup_cons] at hnd3
            rw [List.filter_append, List.filter_cons]
            simp only [ne_eq, not_true, decide_false, Bool.false_eq_true, if_false]
            congr 1
            · rw [List.filter_eq_self]
              intro x hx
              have : x ≠ k := hnd3.2.2 x hx k (by simp)
              simpa using this
            · rw [List.filter_eq_self]
              intro x hx
              have : x ≠ k := by rintro rfl; exact hnd3.2.1.1 hx
              simpa using this
          rw [List.map_cons, ← hf, hk]
          have hlen : (a ++ (k, f) :: b).length ≤ c.maxSize.toNat := by
            have := i.frames; omega
          cases hm : c.maxSize.toNat with
          | zero => rw [hm] at hlen; simp at hlen
          | succ m =>
            rw [hm] at hin hk hlen
            simp only [List.take_succ_cons]
            congr 1
            have h1 := take_filter_ne (m := m) (k := k) hnd
            rw [← List.take_of_length_le (i := m) (l := ((Spec.recency past).take (m + 1)).filter (· ≠ k))]
            · exact h1
            · rw [← hk, hf]
              simp at hlen ⊢; omega
        · simp only [Spec.recency, foldl_snoc]
          exact nodup_use hnd _
        · simp only [Spec.stored, List.map_append, List.map_cons, List.map_nil, foldl_snoc]
          exact next_agree (c := c) (hs := hs) (.hit a k f b rfl) ha
        · rintro c2 ⟨e2, e3⟩
          refine ⟨c2, ?_, by rw [e3, hsm]⟩
          rw [hsm] at e2
          simp only [run, step, e, Res.bind_ok, e2, Spec.ideal, if_pos hin, hst]
      · have hin : k ∉ (Spec.recency past).take c.maxSize.toNat := by rw [← hk]; exact hnot
        refine Exists.elim (ih c' _ hs (past ++ [(.lookup k, none)]) hpt i' ?_ ?_ ?_) ?_
        · rw [hm]
          simp only [Spec.recency, foldl_snoc, Spec.use]
          exact hk
        · simp only [Spec.recency, foldl_snoc]
          exact nodup_use hnd _
        · simp only [Spec.stored, List.map_append, List.map_cons, List.map_nil, foldl_snoc]
          exact ha
        · rintro c2 ⟨e2, e3⟩
          refine ⟨c2, ?_, by rw [e3, hm]⟩
          rw [hm] at e2
          simp only [run, step, e, Res.bind_ok, e2, Spec.ideal, if_neg hin]
    | setMaxFrames m => simp [Spec.plain] at hop
    | setUserMaxFrames m => simp [Spec.plain] at hop
    | resetSizeTuning => simp [Spec.plain] at hop
    | setMaxHistory m => simp [Spec.plain] at hop
    | setFixedSize b => simp [Spec.plain] at hop
    | clear => simp [Spec.plain] at hop
    | adjustSize b e => simp [Spec.plain] at hop
    | dropLRUFrames n => simp [Spec.plain] at hop

end VS.Cache
