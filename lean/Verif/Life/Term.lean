import Verif.Life.Trace

/-!
# Releasing ends, and then everything is freed
-/

namespace VS.Life

/-- Nothing is in progress in a thread. -/
def Thread.idle (t : Thread) : Prop := t.stack = []

theorem idle_zero {t : Thread} (hi : t.idle) (ht : TInv t) (f : Frame → Nat) : t.sum f = 0 ∧ t.list = [] := by
  have h1 : t.sum f = 0 := by unfold Thread.sum; rw [hi]; rfl
  refine ⟨h1, ?_⟩
  have h2 := ht.depth
  have h3 : t.sum Frame.drains = 0 := by unfold Thread.sum; rw [hi]; rfl
  cases hl : t.list with
  | nil => rfl
  | cons x l => have := ht.list (by rw [hl]; simp); omega

/-- Without external references and calls in progress no count is left. -/
theorem quiet_rc {h : Heap} (hi : HInv h (fun _ => 0) (fun _ => 0) (fun _ => 0) (fun _ => 0))
    (he : ∀ c, h.ext c = 0) : ∀ k c, h.next ≤ c + k → (h.node c).rc = 0
  | 0, c, hk => by rw [(hi.fresh c (by omega)).1]; rfl
  | k + 1, c, hk => by
    have ih := quiet_rc hi he k
    rw [hi.refs c, he c]
    show 0 + h.held c + 0 = 0
    have : h.held c = 0 := by
      unfold Heap.held
      have hz : ∀ n < h.next, (h.node n).deps.count c + (h.node n).data.count c = 0 := by
        intro n hn
        refine Nat.eq_zero_of_not_pos (fun hp => ?_)
        have hm : c ∈ (h.node n).deps ∨ c ∈ (h.node n).data := by
          by_cases h1 : c ∈ (h.node n).deps
          · exact Or.inl h1
          · rw [List.count_eq_zero.2 h1] at hp
            exact Or.inr (List.count_pos_iff.1 (by omega))
        have hlt := hi.order n c hm
        have hrc := ih n (by omega)
        rcases hm with hm | hm
        · exact hi.deps n (List.ne_nil_of_mem hm) hrc
        · obtain ⟨g1, g2⟩ := hi.data n (List.ne_nil_of_mem hm)
          have g3 := hi.freed n
          have g4 := hi.place n hn
          rw [g1] at g3
          have g5 : (h.node n).alive = 0 := by unfold Node.alive; rw [hrc]; rfl
          have g6 := List.count_eq_zero.2 g2
          simp only [if_true] at g3
          omega
      clear ih
      generalize h.next = m at hz ⊢
      clear hk
      induction m with
      | zero => rfl
      | succ m ihm =>
        show sumTo _ m + ((h.node m).deps.count c + (h.node m).data.count c) = 0
        rw [ihm (fun n hn => hz n (by omega))]
        have := hz m (by omega)
        omega
    omega

theorem quiet_hinv {s : State} (hi : Inv s) (hq : ∀ t ∈ s.ts, t.idle) :
    HInv s.h (fun _ => 0) (fun _ => 0) (fun _ => 0) (fun _ => 0) :=
  hi.1.congr (fun _ => (total_zero (fun t ht => (idle_zero (hq t ht) (hi.2.2 t ht) _).1)).symm)
    (fun _ => (total_zero (fun t ht => (idle_zero (hq t ht) (hi.2.2 t ht) _).1)).symm)
    (fun _ => (total_zero (fun t ht => by
      rw [(idle_zero (hq t ht) (hi.2.2 t ht) (fun _ => 0)).2]; rfl)).symm)
    (fun _ => (total_zero (fun t ht => (idle_zero (hq t ht) (hi.2.2 t ht) _).1)).symm)

/-- Then all filters are gone. -/
theorem quiet_gone {s : State} (hi : Inv s) (hq : ∀ t ∈ s.ts, t.idle) (he : ∀ c, s.h.ext c = 0) :
    ∀ c < s.h.next, (s.h.node c).gone = true := by
  intro c hc
  have h0 := quiet_hinv hi hq
  have h1 := quiet_rc h0 he s.h.next c (by omega)
  have h2 := h0.place c hc
  have h3 : (s.h.node c).alive = 0 := by unfold Node.alive; rw [h1]; rfl
  rw [h3] at h2
  cases hx : (s.h.node c).gone with
  | true => rfl
  | false => unfold Node.over at h2; rw [hx] at h2; cases h2

/-! ## The measure -/

def Node.work (n : Node) : Nat := 6 * n.alive + 2 * n.deps.length + 2 * n.data.length

def Frame.work : Frame → Nat
  | .rel _ => 1
  | .dtor _ ds => 5 + 2 * ds.length
  | .drain => 1
  | .free _ ds => 2 + 2 * ds.length

def Thread.work (t : Thread) : Nat := t.sum Frame.work + 3 * t.list.length

def Heap.work (h : Heap) : Nat := sumTo (fun n => (h.node n).work) h.next

def State.work (s : State) : Nat := s.h.work + total Thread.work s.ts

theorem work_set {h : Heap} {c : Nat} (hc : c < h.next) (n : Node) :
    (h.setNode c n).work + (h.node c).work = h.work + n.work := by
  have := sumTo_one (f := fun n => (h.node n).work) (f' := fun m => (upd h.node c n m).work) hc
    (fun x _ hx => by simp only [upd_ne _ _ hx])
  simp only [upd_self] at this
  exact this

theorem work_decInst (h : Heap) : h.decInst.work = h.work := by
  unfold Heap.decInst
  split
  · rfl
  · split <;> rfl

theorem work_touch (h : Heap) : h.touch.work = h.work := by
  unfold Heap.touch
  split <;> rfl

theorem work_instGone {h : Heap} {c : Nat} (hc : c < h.next) : (h.instGone c).work = h.work := by
  unfold Heap.instGone
  rw [work_decInst]
  have := work_set hc { h.node c with gone := true }
  have e : ({ h.node c with gone := true } : Node).work = (h.node c).work := rfl
  omega

theorem step_work {h h' : Heap} {t t' : Thread} {R A Q B : Nat → Nat} (hs : t.step h = some (h', t'))
    (hi : HInvT h t R A Q B) : h'.work + t'.work < h.work + t.work := by
  obtain ⟨stack, depth, list⟩ := t
  unfold HInvT at hi
  cases stack with
  | nil => cases hs
  | cons a r =>
    simp only [sum_cons2] at hi
    cases a with
    | rel c =>
      simp only [refs_rel] at hi
      have hrc : (h.node c).rc ≠ 0 := by
        have := hi.refs c
        rw [ind_self] at this
        omega
      have hlt := hi.lt (c := c) (Or.inl hrc)
      simp only [Thread.step] at hs
      rw [if_neg hrc] at hs
      split at hs
      · next h1 =>
        injection hs with hs; injection hs with e1 e2; subst e1 e2
        rw [work_touch]
        have := work_set hlt (Node.mk 0 [] (h.node c).data (h.node c).hasFree (h.node c).gone)
        have e1 : (Node.mk 0 [] (h.node c).data (h.node c).hasFree (h.node c).gone).work = 2 * (h.node c).data.length := by
          simp [Node.work, Node.alive]
        have e2 : (h.node c).work = 6 + 2 * (h.node c).deps.length + 2 * (h.node c).data.length := by
          unfold Node.work Node.alive; rw [if_neg hrc]
        simp only [Thread.work, sum_cons2, Frame.work, List.map_cons, List.sum_cons]
        omega
      · next h1 =>
        injection hs with hs; injection hs with e1 e2; subst e1 e2
        have := work_set hlt (Node.mk ((h.node c).rc - 1) (h.node c).deps (h.node c).data (h.node c).hasFree (h.node c).gone)
        have e1 : (Node.mk ((h.node c).rc - 1) (h.node c).deps (h.node c).data (h.node c).hasFree (h.node c).gone).work = (h.node c).work := by
          unfold Node.work Node.alive
          rw [if_neg hrc, if_neg (show ¬(h.node c).rc - 1 = 0 by omega)]
        simp only [Thread.work, sum_cons2, sum_mk, Frame.work, List.map_cons, List.sum_cons]
        omega
    | dtor c ds =>
      cases ds with
      | cons d ds =>
        simp only [Thread.step] at hs
        injection hs with hs; injection hs with e1 e2; subst e1 e2
        simp only [Thread.work, sum_cons2, Frame.work, List.map_cons, List.sum_cons, List.length_cons]
        omega
      | nil =>
        simp only [dtors_dtor] at hi
        have hal := hi.alive (c := c) (Or.inr (Or.inl (by rw [ind_self]; omega)))
        simp only [Thread.step] at hs
        have hw : ∀ (h2 : Heap) (l2 : List Nat), h2.work = h.work → l2.length ≤ list.length + 1 →
            (if depth = 0 then some (h2, Thread.mk (.drain :: r) 1 l2) else some (h2, Thread.mk r depth l2)) =
              some (h', t') → h'.work + t'.work < h.work + Thread.work ⟨.dtor c [] :: r, depth, list⟩ := by
          intro h2 l2 g1 g2 hs2
          split at hs2
          · injection hs2 with hs2; injection hs2 with e1 e2; subst e1 e2
            simp only [Thread.work, sum_cons2, Frame.work, List.length_nil, List.map_cons, List.sum_cons]
            omega
          · injection hs2 with hs2; injection hs2 with e1 e2; subst e1 e2
            simp only [Thread.work, sum_cons2, sum_mk, Frame.work, List.length_nil, List.map_cons, List.sum_cons]
            omega
        refine hw _ _ ?_ ?_ hs
        · split
          · exact work_touch h
          · rw [work_instGone (by rw [touch_eq hal.2.2]; exact hal.1), work_touch]
        · split
          · simp
          · omega
    | drain =>
      cases list with
      | nil =>
        simp only [Thread.step] at hs
        injection hs with hs; injection hs with e1 e2; subst e1 e2
        simp only [Thread.work, sum_cons2, sum_mk, Frame.work, List.map_cons, List.sum_cons]
        omega
      | cons x l =>
        have hlt := hi.lt (c := x) (Or.inr (Or.inr (Or.inl (by rw [count_cons', ind_self]; omega))))
        simp only [Thread.step] at hs
        injection hs with hs; injection hs with e1 e2; subst e1 e2
        rw [work_touch]
        have := work_set hlt (Node.mk (h.node x).rc (h.node x).deps [] (h.node x).hasFree (h.node x).gone)
        have e0 : ((h.setNode x (Node.mk (h.node x).rc (h.node x).deps [] (h.node x).hasFree (h.node x).gone)).emit (.freed x)).work =
          (h.setNode x (Node.mk (h.node x).rc (h.node x).deps [] (h.node x).hasFree (h.node x).gone)).work := rfl
        have e1 : (h.node x).work = (Node.mk (h.node x).rc (h.node x).deps [] (h.node x).hasFree (h.node x).gone).work + 2 * (h.node x).data.length := by
          simp only [Node.work, Node.alive, List.length_nil]
          omega
        simp only [Thread.work, sum_cons2, Frame.work, List.map_cons, List.sum_cons, List.length_cons]
        omega
    | free c ds =>
      cases ds with
      | cons d ds =>
        simp only [Thread.step] at hs
        injection hs with hs; injection hs with e1 e2; subst e1 e2
        simp only [Thread.work, sum_cons2, Frame.work, List.map_cons, List.sum_cons, List.length_cons]
        omega
      | nil =>
        simp only [frees_free] at hi
        have hlt := hi.lt (c := c) (Or.inr (Or.inr (Or.inr (by rw [ind_self]; omega))))
        simp only [Thread.step] at hs
        injection hs with hs; injection hs with e1 e2; subst e1 e2
        rw [work_instGone hlt]
        simp only [Thread.work, sum_cons2, sum_mk, Frame.work, List.length_nil, List.map_cons, List.sum_cons]
        omega

theorem run_work {s s' : State} {i : Nat} (hi : Inv s) (hs : s.step (.run i) = some s') : s'.work < s.work := by
  simp only [State.step] at hs
  split at hs
  · next t ht =>
    split at hs
    · next h' t' hst =>
      injection hs with hs
      subst hs
      obtain ⟨l, r, e1, e2⟩ := get_split ht
      have h1 := hi.1
      rw [e1] at h1
      simp only [total_mid] at h1
      have := step_work hst h1
      unfold State.work
      rw [e2, e1, total_mid, total_mid]
      show h'.work + _ < _
      omega
    · cases hs
  · cases hs

/-- The work a call of user code brings. -/
def Action.work : Action → Nat
  | .create deps data _ => 6 + 2 * deps.length + 2 * data.length
  | .drop _ _ => 1
  | _ => 0

theorem user_work {s s' : State} {a : Action} (hi : Inv s) (hs : s.step a = some s') (ha : ∀ i, a ≠ .run i) :
    s'.work ≤ s.work + a.work := by
  cases a with
  | create deps data f =>
    simp only [State.step] at hs
    split at hs
    · next hc =>
      injection hs with hs
      subst hs
      show (s.h.create deps data f).work + _ ≤ s.h.work + _ + _
      have : (s.h.create deps data f).work = s.h.work + (6 + 2 * deps.length + 2 * data.length) := by
        unfold Heap.work
        have e : ∀ x < s.h.next, ((s.h.create deps data f).node x).work = (s.h.node x).work := by
          intro x hx
          have hne : x ≠ s.h.next := by omega
          have e1 : (s.h.create deps data f).node x =
              { s.h.node x with rc := (s.h.node x).rc + deps.count x } := by
            simp [Heap.create, hne]
          rw [e1]
          unfold Node.work Node.alive
          have e2 : ((s.h.node x).rc + deps.count x = 0) ↔ (s.h.node x).rc = 0 := by
            constructor
            · omega
            · intro h0
              by_cases hm : x ∈ deps
              · have g1 := hc.2.1 x hm
                have g2 := hi.1.refs x
                omega
              · rw [List.count_eq_zero.2 hm, h0]
          simp only [e2]
        show sumTo _ s.h.next + ((s.h.create deps data f).node s.h.next).work = _
        rw [sumTo_congr e]
        congr 1
        simp [Heap.create, Node.work, Node.alive]
      rw [this]
      show _ + total Thread.work s.ts ≤ _ + _ + (6 + 2 * deps.length + 2 * data.length)
      omega
    · cases hs
  | addRef c =>
    simp only [State.step] at hs
    split at hs
    · next hc =>
      injection hs with hs
      subst hs
      have hrc : (s.h.node c).rc ≠ 0 := by have := hi.1.refs c; omega
      have hlt := hi.1.lt (c := c) (Or.inl hrc)
      have := work_set hlt (Node.mk ((s.h.node c).rc + 1) (s.h.node c).deps (s.h.node c).data (s.h.node c).hasFree (s.h.node c).gone)
      have e1 : (Node.mk ((s.h.node c).rc + 1) (s.h.node c).deps (s.h.node c).data (s.h.node c).hasFree (s.h.node c).gone).work = (s.h.node c).work := by
        unfold Node.work Node.alive
        rw [if_neg hrc, if_neg (show ¬(s.h.node c).rc + 1 = 0 by omega)]
      show (s.h.setNode c (Node.mk ((s.h.node c).rc + 1) (s.h.node c).deps (s.h.node c).data (s.h.node c).hasFree
        (s.h.node c).gone)).work + total Thread.work s.ts ≤ s.h.work + total Thread.work s.ts + 0
      omega
    · cases hs
  | freeCore =>
    simp only [State.step] at hs
    split at hs
    · injection hs with hs
      subst hs
      show (Heap.decInst _).work + _ ≤ _
      rw [work_decInst]
      exact Nat.le_refl _
    · cases hs
  | drop i c =>
    simp only [State.step] at hs
    split at hs
    · next t ht =>
      split at hs
      · injection hs with hs
        subst hs
        obtain ⟨l, r, e1, e2⟩ := get_split ht
        unfold State.work
        rw [e2, e1, total_mid, total_mid]
        show s.h.work + (_ + Thread.work ⟨.rel c :: t.stack, t.depth, t.list⟩) ≤ s.h.work + _ + 1
        simp only [Thread.work, sum_cons2, Frame.work, List.map_cons, List.sum_cons]
        unfold Thread.sum
        omega
      · cases hs
    · cases hs
  | run i => exact absurd rfl (ha i)

end VS.Life
