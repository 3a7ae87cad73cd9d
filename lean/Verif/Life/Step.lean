import Verif.Life.Heap

/-!
# The invariant holds in every history
-/

namespace VS.Life

theorem sum_cons (f : Frame → Nat) (t : Thread) (a : Frame) (r : List Frame) (e : t.stack = a :: r) :
    t.sum f = f a + (r.map f).sum := by
  unfold Thread.sum
  rw [e]
  rfl

theorem sum_cons2 (f : Frame → Nat) (a : Frame) (r : List Frame) (n : Nat) (l : List Nat) :
    Thread.sum f { stack := a :: r, depth := n, list := l } = f a + (r.map f).sum := rfl

theorem sum_mk (f : Frame → Nat) (r : List Frame) (n : Nat) (l : List Nat) :
    Thread.sum f { stack := r, depth := n, list := l } = (r.map f).sum := rfl

theorem count_cons' (d c : Nat) (l : List Nat) : (c :: l).count d = l.count d + ind c d := by
  rw [List.count_cons]
  unfold ind
  by_cases e : d = c
  · subst e; simp
  · rw [if_neg e, if_neg (by simpa using fun h => e h.symm)]

theorem refs_rel (c d : Nat) : Frame.refs d (.rel c) = ind c d := by
  show (if c = d then 1 else 0) = if d = c then 1 else 0
  by_cases e : d = c
  · subst e; rfl
  · rw [if_neg e, if_neg (fun h => e h.symm)]

theorem dtors_dtor (c d : Nat) (ds : List Nat) : Frame.dtors d (.dtor c ds) = ind c d := by
  show (if c = d then 1 else 0) = if d = c then 1 else 0
  by_cases e : d = c
  · subst e; rfl
  · rw [if_neg e, if_neg (fun h => e h.symm)]

theorem frees_free (c d : Nat) (ds : List Nat) : Frame.frees d (.free c ds) = ind c d := by
  show (if c = d then 1 else 0) = if d = c then 1 else 0
  by_cases e : d = c
  · subst e; rfl
  · rw [if_neg e, if_neg (fun h => e h.symm)]

/-- The bookkeeping with the counts of one thread apart. -/
def HInvT (h : Heap) (t : Thread) (R A Q B : Nat → Nat) : Prop :=
  HInv h (fun c => R c + t.sum (Frame.refs c)) (fun c => A c + t.sum (Frame.dtors c)) (fun c => Q c + t.list.count c)
    (fun c => B c + t.sum (Frame.frees c))

theorem HInv.congr {h : Heap} {R A Q B R' A' Q' B' : Nat → Nat} (hi : HInv h R A Q B) (h1 : ∀ c, R' c = R c)
    (h2 : ∀ c, A' c = A c) (h3 : ∀ c, Q' c = Q c) (h4 : ∀ c, B' c = B c) : HInv h R' A' Q' B' := by
  have e1 : R' = R := funext h1
  have e2 : A' = A := funext h2
  have e3 : Q' = Q := funext h3
  have e4 : B' = B := funext h4
  rw [e1, e2, e3, e4]
  exact hi

theorem step_inv {h h' : Heap} {t t' : Thread} {R A Q B : Nat → Nat} (hs : t.step h = some (h', t'))
    (ht : TInv t) (hi : HInvT h t R A Q B) (hc : h.inst = 0 → h.coreGone = true) :
    HInvT h' t' R A Q B ∧ (h'.inst = 0 → h'.coreGone = true) ∧ TInv t' := by
  obtain ⟨stack, depth, list⟩ := t
  obtain ⟨k1, k2, k3⟩ := ht
  simp only at k1 k2 k3
  unfold HInvT at hi ⊢
  cases stack with
  | nil => cases hs
  | cons a r =>
    simp only [sum_cons2] at hi k1
    cases a with
    | rel c =>
      simp only [refs_rel, Frame.dtors, Frame.frees, Frame.drains] at hi k1
      have hrc : (h.node c).rc ≠ 0 := by
        have := hi.refs c
        rw [ind_self] at this
        omega
      simp only [Thread.step] at hs
      rw [if_neg hrc] at hs
      by_cases h1 : (h.node c).rc = 1
      · rw [if_pos h1] at hs
        have hal := hi.alive (c := c) (Or.inl hrc)
        injection hs with hs
        injection hs with e1 e2
        rw [touch_eq (by exact hal.2.2)] at e1
        subst e1 e2
        simp only [sum_cons2, dtors_dtor, Frame.frees]
        refine ⟨?_, hc, ?_⟩
        · refine (hi.last h1 (R' := fun d => R d + (Frame.refs d (.dtor c (h.node c).deps) + (r.map (Frame.refs d)).sum))
            (A' := fun d => A d + (ind c d + (r.map (Frame.dtors d)).sum)) ?_ ?_).congr
            (fun _ => rfl) (fun _ => rfl) (fun _ => rfl) (fun _ => rfl)
          · intro d
            simp only [Frame.refs]
            omega
          · intro d
            omega
        · exact ⟨by simpa only [sum_cons2, Frame.drains] using k1, k2, k3⟩
      · rw [if_neg h1] at hs
        injection hs with hs
        injection hs with e1 e2
        subst e1 e2
        simp only [sum_mk]
        refine ⟨?_, hc, ?_⟩
        · refine (hi.dec (by omega) (R' := fun d => R d + (r.map (Frame.refs d)).sum) ?_).congr
            (fun _ => rfl) ?_ (fun _ => rfl) ?_
          · intro d
            omega
          · intro d
            omega
          · intro d
            omega
        · exact ⟨by simpa only [sum_mk, Nat.zero_add] using k1, k2, k3⟩
    | dtor c ds =>
      cases ds with
      | cons d ds =>
        simp only [Thread.step] at hs
        injection hs with hs
        injection hs with e1 e2
        subst e1 e2
        refine ⟨?_, hc, ?_⟩
        · refine hi.congr ?_ ?_ (fun _ => rfl) ?_
          · intro x
            simp only [sum_cons2, List.map_cons, List.sum_cons, refs_rel]
            simp only [Frame.refs, count_cons']
            omega
          · intro x
            simp only [sum_cons2, List.map_cons, List.sum_cons, Frame.dtors]
            omega
          · intro x
            simp only [sum_cons2, List.map_cons, List.sum_cons, Frame.frees]
            omega
        · refine ⟨?_, k2, k3⟩
          simp only [sum_cons2, List.map_cons, List.sum_cons, Frame.drains] at k1 ⊢
          omega
      | nil =>
        simp only [dtors_dtor, Frame.refs, List.count_nil, Frame.frees, Frame.drains] at hi k1
        have hal := hi.alive (c := c) (Or.inr (Or.inl (by rw [ind_self]; omega)))
        simp only [Thread.step] at hs
        rw [touch_eq hal.2.2] at hs
        -- the thread after the step
        have fin : ∀ (h2 : Heap) (l2 : List Nat),
            HInv h2 (fun d => R d + (r.map (Frame.refs d)).sum) (fun d => A d + (r.map (Frame.dtors d)).sum)
              (fun d => Q d + l2.count d) (fun d => B d + (r.map (Frame.frees d)).sum) →
            (h2.inst = 0 → h2.coreGone = true) →
            (if depth = 0 then some (h2, Thread.mk (.drain :: r) 1 l2) else some (h2, Thread.mk r depth l2)) =
              some (h', t') →
            HInv h' (fun c => R c + t'.sum (Frame.refs c)) (fun c => A c + t'.sum (Frame.dtors c))
              (fun c => Q c + t'.list.count c) (fun c => B c + t'.sum (Frame.frees c)) ∧
              (h'.inst = 0 → h'.coreGone = true) ∧ TInv t' := by
          intro h2 l2 hi2 hc2 hs2
          by_cases hd : depth = 0
          · rw [if_pos hd] at hs2
            injection hs2 with hs2
            injection hs2 with e1 e2
            subst e1 e2
            refine ⟨hi2.congr ?_ ?_ (fun _ => rfl) ?_, hc2, ?_⟩
            · intro d; simp only [sum_cons2, Frame.refs]; omega
            · intro d; simp only [sum_cons2, Frame.dtors]; omega
            · intro d; simp only [sum_cons2, Frame.frees]; omega
            · refine ⟨?_, Nat.le_refl _, fun _ => rfl⟩
              simp only [sum_cons2, Frame.drains]
              omega
          · rw [if_neg hd] at hs2
            injection hs2 with hs2
            injection hs2 with e1 e2
            subst e1 e2
            refine ⟨hi2, hc2, ?_, k2, fun _ => ?_⟩
            · simp only [sum_mk]; omega
            · show depth = 1
              omega
        cases hf : (h.node c).hasFree with
        | true =>
          simp only [hf, if_true] at hs
          refine fin h (c :: list) ?_ hc hs
          refine (hi.enlist hf (A' := fun d => A d + (r.map (Frame.dtors d)).sum)
            (Q' := fun d => Q d + (c :: list).count d) ?_ ?_).congr ?_ (fun _ => rfl) (fun _ => rfl) ?_
          · intro d; omega
          · intro d; simp only [count_cons']; omega
          · intro d; omega
          · intro d; omega
        | false =>
          simp only [hf, Bool.false_eq_true, if_false] at hs
          have hg := hi.instGone (A' := fun d => A d + (r.map (Frame.dtors d)).sum)
            (B' := fun d => B d + (r.map (Frame.frees d)).sum) hal.2.1 hal.1
            (by intro d; omega) (by intro hx; rw [hf] at hx; cases hx)
            (by intro _ d; omega) hal.2.2
          refine fin (h.instGone c) list ?_ hg.2 hs
          refine hg.1.congr ?_ (fun _ => rfl) (fun _ => rfl) (fun _ => rfl)
          intro d; omega
    | drain =>
      simp only [Frame.dtors, Frame.refs, Frame.frees, Frame.drains] at hi k1
      cases list with
      | nil =>
        simp only [Thread.step] at hs
        injection hs with hs
        injection hs with e1 e2
        subst e1 e2
        refine ⟨hi.congr ?_ ?_ (fun _ => rfl) ?_, hc, ?_⟩
        · intro d; simp only [sum_mk]; omega
        · intro d; simp only [sum_mk]; omega
        · intro d; simp only [sum_mk]; omega
        · refine ⟨?_, ?_, fun hx => absurd rfl hx⟩
          · simp only [sum_mk]; omega
          · show depth - 1 ≤ 1
            omega
      | cons x l =>
        simp only [Thread.step] at hs
        have hal := hi.alive (c := x) (Or.inr (Or.inr (Or.inl (by
          rw [count_cons', ind_self]; omega))))
        injection hs with hs
        injection hs with e1 e2
        rw [touch_eq (by exact hal.2.2)] at e1
        subst e1 e2
        refine ⟨?_, hc, ?_⟩
        · refine (hi.call (c := x) (R' := fun d => R d + ((h.node x).data.count d + (r.map (Frame.refs d)).sum))
            (Q' := fun d => Q d + l.count d) (B' := fun d => B d + (ind x d + (r.map (Frame.frees d)).sum)) ?_ ?_
            ?_).congr ?_ ?_ (fun _ => rfl) ?_
          · intro d; omega
          · intro d; simp only [count_cons']; omega
          · intro d; omega
          · intro d; simp only [sum_cons2, Frame.refs, List.map_cons, List.sum_cons]; omega
          · intro d; simp only [sum_cons2, Frame.dtors, List.map_cons, List.sum_cons]; omega
          · intro d
            simp only [sum_cons2, frees_free, List.map_cons, List.sum_cons]
            simp only [Frame.frees]
            omega
        · refine ⟨?_, k2, fun _ => k3 (by simp)⟩
          simp only [sum_cons2, Frame.drains, List.map_cons, List.sum_cons]
          omega
    | free c ds =>
      cases ds with
      | cons d ds =>
        simp only [Thread.step] at hs
        injection hs with hs
        injection hs with e1 e2
        subst e1 e2
        refine ⟨?_, hc, ?_⟩
        · refine hi.congr ?_ ?_ (fun _ => rfl) ?_
          · intro x
            simp only [sum_cons2, List.map_cons, List.sum_cons, refs_rel]
            simp only [Frame.refs, count_cons']
            omega
          · intro x
            simp only [sum_cons2, List.map_cons, List.sum_cons, Frame.dtors]
            omega
          · intro x
            simp only [sum_cons2, List.map_cons, List.sum_cons, Frame.frees]
            omega
        · refine ⟨?_, k2, k3⟩
          simp only [sum_cons2, List.map_cons, List.sum_cons, Frame.drains] at k1 ⊢
          omega
      | nil =>
        simp only [frees_free, Frame.refs, List.count_nil, Frame.dtors, Frame.drains] at hi k1
        have hBc : B c + (ind c c + (r.map (Frame.frees c)).sum) ≠ 0 := by rw [ind_self]; omega
        have hal := hi.alive (c := c) (Or.inr (Or.inr (Or.inr hBc)))
        have hf : (h.node c).hasFree = true := by
          cases hx : (h.node c).hasFree with
          | true => rfl
          | false => exact absurd (hi.nofree c hx).2 hBc
        simp only [Thread.step] at hs
        injection hs with hs
        injection hs with e1 e2
        subst e1 e2
        have hg := hi.instGone (A' := fun d => A d + (r.map (Frame.dtors d)).sum)
          (B' := fun d => B d + (r.map (Frame.frees d)).sum) hal.2.1 hal.1
          (by intro d; omega) (by intro _ d; omega)
          (by intro hx; rw [hf] at hx; cases hx) hal.2.2
        refine ⟨hg.1.congr ?_ (fun _ => rfl) (fun _ => rfl) (fun _ => rfl), hg.2, ?_, k2, k3⟩
        · intro d; simp only [sum_mk]; omega
        · simp only [sum_mk]; omega

theorem step_pres {s s' : State} {a : Action} (hi : Inv s) (hs : s.step a = some s') : Inv s' := by
  obtain ⟨h1, h2, h3⟩ := hi
  cases a with
  | create deps data f =>
    simp only [State.step] at hs
    split at hs
    · next hc =>
      injection hs with hs
      subst hs
      obtain ⟨c1, c2, c3, c4⟩ := hc
      refine ⟨h1.create c1 c2 c3 c4, ?_, h3⟩
      intro hz
      have : s.h.inst + 1 = 0 := hz
      omega
    · cases hs
  | addRef c =>
    simp only [State.step] at hs
    split at hs
    · next hc =>
      injection hs with hs
      subst hs
      exact ⟨h1.addRef hc, h2, h3⟩
    · cases hs
  | freeCore =>
    simp only [State.step] at hs
    split at hs
    · next hc =>
      injection hs with hs
      subst hs
      exact ⟨(h1.freeCore hc).1, (h1.freeCore hc).2, h3⟩
    · cases hs
  | drop i c =>
    simp only [State.step] at hs
    split at hs
    · next t ht =>
      split at hs
      · next hc =>
        injection hs with hs
        subst hs
        obtain ⟨l, r, e1, e2⟩ := get_split ht
        have ht3 := h3 t (by rw [e1]; simp)
        refine ⟨?_, h2, ?_⟩
        · rw [e1] at h1
          rw [e2]
          simp only [total_mid] at h1 ⊢
          refine (h1.drop hc.2 (R' := fun d => total (Thread.sum (Frame.refs d)) l + total (Thread.sum (Frame.refs d)) r
            + (ind c d + t.sum (Frame.refs d))) ?_).congr ?_ ?_ (fun _ => rfl) ?_
          · intro d; omega
          · intro d; rw [sum_cons2, refs_rel]; rfl
          · intro d; rw [sum_cons2]; show _ = _ + t.sum _; simp only [Frame.dtors, Thread.sum]; omega
          · intro d; rw [sum_cons2]; show _ = _ + t.sum _; simp only [Frame.frees, Thread.sum]; omega
        · intro x hx
          rw [e2] at hx
          rcases List.mem_append.1 hx with hx | hx
          · exact h3 x (by rw [e1]; exact List.mem_append.2 (Or.inl hx))
          · rcases List.mem_cons.1 hx with hx | hx
            · subst hx
              refine ⟨?_, ht3.one, ht3.list⟩
              have := ht3.depth
              simp only [sum_cons2, Frame.drains]
              unfold Thread.sum at this
              omega
            · exact h3 x (by rw [e1]; exact List.mem_append.2 (Or.inr (List.mem_cons_of_mem _ hx)))
      · cases hs
    · cases hs
  | run i =>
    simp only [State.step] at hs
    split at hs
    · next t ht =>
      split at hs
      · next h' t' hst =>
        injection hs with hs
        subst hs
        obtain ⟨l, r, e1, e2⟩ := get_split ht
        have ht3 := h3 t (by rw [e1]; simp)
        rw [e1] at h1
        simp only [total_mid] at h1
        obtain ⟨g1, g2, g3⟩ := step_inv hst ht3 h1 h2
        refine ⟨?_, g2, ?_⟩
        · rw [e2]
          simp only [total_mid]
          exact g1
        · intro x hx
          rw [e2] at hx
          rcases List.mem_append.1 hx with hx | hx
          · exact h3 x (by rw [e1]; exact List.mem_append.2 (Or.inl hx))
          · rcases List.mem_cons.1 hx with hx | hx
            · subst hx; exact g3
            · exact h3 x (by rw [e1]; exact List.mem_append.2 (Or.inr (List.mem_cons_of_mem _ hx)))
      · cases hs
    · cases hs

theorem init_inv (threads : Nat) : Inv (State.init threads) := by
  have hz : ∀ f : Thread → Nat, f { stack := [], depth := 0, list := [] } = 0 →
      total f (State.init threads).ts = 0 := by
    intro f hf
    refine total_zero (fun t ht => ?_)
    rw [(List.mem_replicate.1 ht).2, hf]
  refine ⟨?_, ?_, ?_⟩
  · refine HInv.congr (R := fun _ => 0) (A := fun _ => 0) (Q := fun _ => 0) (B := fun _ => 0) ?_
      (fun _ => hz _ rfl) (fun _ => hz _ rfl) (fun _ => hz _ rfl) (fun _ => hz _ rfl)
    refine ⟨rfl, fun _ => rfl, fun c hc => absurd hc (Nat.not_lt_zero c), fun _ _ => ⟨rfl, rfl, rfl, rfl⟩, rfl, ?_, ?_,
      ?_, ?_, fun _ _ => ⟨rfl, rfl⟩, fun _ => rfl, ?_, fun c hc => absurd hc (Nat.not_lt_zero c), ?_, rfl⟩
    · intro hx; cases hx
    · intro n hx; exact absurd rfl hx
    · rintro n d (hx | hx) <;> cases hx
    · intro n hx; exact absurd rfl hx
    · intro n ds xs f hx; cases hx
    · exact ⟨fun hx => (nomatch hx), fun hx => (nomatch hx)⟩
  · intro hx; cases hx
  · intro t ht
    rw [(List.mem_replicate.1 ht).2]
    exact ⟨rfl, Nat.zero_le _, fun hx => absurd rfl hx⟩

theorem run_inv {threads : Nat} {as : List Action} {s : State} (h : Run threads as s) : Inv s := by
  induction h with
  | nil => exact init_inv threads
  | snoc _ hs ih => exact step_pres ih hs

end VS.Life
