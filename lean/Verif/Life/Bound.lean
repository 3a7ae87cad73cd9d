import Verif.Life.Term

/-!
# The depth of the call stack
-/

namespace VS.Life

/-- Every filter keeps its own references to the nodes it depends on, as the filters in `src/core` do. -/
def Owns (as : List Action) : Prop :=
  ∀ deps data f, .create deps data f ∈ as → ∀ d ∈ deps, d ∈ data

inductive Base : List Frame → Prop where
  | nil : Base []
  | free (c : Nat) (ds : List Nat) : Base [.free c ds, .drain]

inductive Shape (data : Nat → List Nat) : List Frame → Prop where
  | base {b : List Frame} : Base b → Shape data b
  | drain : Shape data [.drain]
  | rel {b : List Frame} (d : Nat) : Base b → Shape data (.rel d :: b)
  | dtor {b : List Frame} {c : Nat} {ds : List Nat} : Base b → (∀ d ∈ ds, d ∈ data c) → Shape data (.dtor c ds :: b)
  | both {b : List Frame} {c d : Nat} {ds : List Nat} : Base b → (∀ x ∈ ds, x ∈ data c) → d ∈ data c →
      Shape data (.rel d :: .dtor c ds :: b)

theorem Shape.length {data : Nat → List Nat} {st : List Frame} (h : Shape data st) : st.length ≤ 4 := by
  have hb : ∀ b, Base b → b.length ≤ 2 := by
    intro b hb
    cases hb with
    | nil => exact Nat.zero_le _
    | free c ds => exact Nat.le_refl _
  cases h with
  | base h => have := hb _ h; omega
  | drain => exact Nat.le_of_lt (by decide)
  | rel d h => have := hb _ h; simp only [List.length_cons]; omega
  | dtor h _ => have := hb _ h; simp only [List.length_cons]; omega
  | both h _ _ => have := hb _ h; simp only [List.length_cons]; omega

/-- Only the data of filters in destruction matters. -/
theorem Shape.mono {f f' : Nat → List Nat} {st : List Frame} (h : Shape f st)
    (he : ∀ c, 0 < (st.map (Frame.dtors c)).sum → f' c = f c) : Shape f' st := by
  cases h with
  | base h => exact .base h
  | drain => exact .drain
  | rel d h => exact .rel d h
  | @dtor b c ds h h2 =>
    have hc := he c (by simp only [List.map_cons, List.sum_cons, dtors_dtor, ind_self]; omega)
    refine .dtor h ?_
    rw [hc]; exact h2
  | @both b c d ds h h2 h3 =>
    have hc := he c (by simp only [List.map_cons, List.sum_cons, dtors_dtor, ind_self]; omega)
    refine .both h ?_ ?_
    · rw [hc]; exact h2
    · rw [hc]; exact h3

def Heap.data (h : Heap) (c : Nat) : List Nat := (h.node c).data

structure Flat (s : State) : Prop where
  own : ∀ n, ∀ d ∈ (s.h.node n).deps, d ∈ (s.h.node n).data
  shape : ∀ t ∈ s.ts, Shape s.h.data t.stack

theorem decInst_node (h : Heap) : h.decInst.node = h.node := by
  unfold Heap.decInst
  split
  · rfl
  · split <;> rfl

theorem touch_node (h : Heap) : h.touch.node = h.node := by
  unfold Heap.touch
  split <;> rfl

/-- How a step of a thread changes a node. -/
theorem step_node {h h' : Heap} {t t' : Thread} (hs : t.step h = some (h', t')) (n : Nat) :
    ((h'.node n).deps = (h.node n).deps ∨ (h'.node n).deps = []) ∧
    ((h'.node n).data = (h.node n).data ∨ n ∈ t.list ∧ (∃ r, t.stack = .drain :: r)) := by
  obtain ⟨stack, depth, list⟩ := t
  have hgone : ∀ (g : Heap) (c : Nat), ((g.instGone c).node n).deps = (g.node n).deps ∧
      ((g.instGone c).node n).data = (g.node n).data := by
    intro g c
    unfold Heap.instGone
    rw [decInst_node]
    show (upd g.node c _ n).deps = _ ∧ (upd g.node c _ n).data = _
    by_cases e : n = c
    · subst e; rw [upd_self]; exact ⟨rfl, rfl⟩
    · rw [upd_ne _ _ e]; exact ⟨rfl, rfl⟩
  cases stack with
  | nil => cases hs
  | cons a r =>
    cases a with
    | rel c =>
      simp only [Thread.step] at hs
      split at hs
      · injection hs with hs; injection hs with e1 _; subst e1; exact ⟨Or.inl rfl, Or.inl rfl⟩
      · split at hs
        · injection hs with hs; injection hs with e1 _; subst e1
          rw [touch_node]
          show ((upd h.node c _ n).deps = _ ∨ (upd h.node c _ n).deps = _) ∧ ((upd h.node c _ n).data = _ ∨ _)
          by_cases e : n = c
          · subst e; rw [upd_self]; exact ⟨Or.inr rfl, Or.inl rfl⟩
          · rw [upd_ne _ _ e]; exact ⟨Or.inl rfl, Or.inl rfl⟩
        · injection hs with hs; injection hs with e1 _; subst e1
          show ((upd h.node c _ n).deps = _ ∨ (upd h.node c _ n).deps = _) ∧ ((upd h.node c _ n).data = _ ∨ _)
          by_cases e : n = c
          · subst e; rw [upd_self]; exact ⟨Or.inl rfl, Or.inl rfl⟩
          · rw [upd_ne _ _ e]; exact ⟨Or.inl rfl, Or.inl rfl⟩
    | dtor c ds =>
      cases ds with
      | cons d ds =>
        simp only [Thread.step] at hs
        injection hs with hs; injection hs with e1 _; subst e1; exact ⟨Or.inl rfl, Or.inl rfl⟩
      | nil =>
        simp only [Thread.step] at hs
        have hn : ∀ (g : Heap) (l : List Nat), (g.node n).deps = (h.node n).deps → (g.node n).data = (h.node n).data →
            (if depth = 0 then some (g, Thread.mk (.drain :: r) 1 l) else some (g, Thread.mk r depth l)) =
              some (h', t') →
            ((h'.node n).deps = (h.node n).deps ∨ (h'.node n).deps = []) ∧
            ((h'.node n).data = (h.node n).data ∨ n ∈ list ∧ (∃ r', Frame.dtor c [] :: r = .drain :: r')) := by
          intro g l g1 g2 hs2
          split at hs2
          · injection hs2 with hs2; injection hs2 with e1 _; subst e1; exact ⟨Or.inl g1, Or.inl g2⟩
          · injection hs2 with hs2; injection hs2 with e1 _; subst e1; exact ⟨Or.inl g1, Or.inl g2⟩
        refine hn _ _ ?_ ?_ hs
        · split
          · rw [touch_node]
          · rw [(hgone _ _).1, touch_node]
        · split
          · rw [touch_node]
          · rw [(hgone _ _).2, touch_node]
    | drain =>
      cases list with
      | nil =>
        simp only [Thread.step] at hs
        injection hs with hs; injection hs with e1 _; subst e1; exact ⟨Or.inl rfl, Or.inl rfl⟩
      | cons x l =>
        simp only [Thread.step] at hs
        injection hs with hs; injection hs with e1 _; subst e1
        rw [touch_node]
        show ((upd h.node x _ n).deps = _ ∨ (upd h.node x _ n).deps = _) ∧ ((upd h.node x _ n).data = _ ∨ _)
        by_cases e : n = x
        · subst e; rw [upd_self]; exact ⟨Or.inl rfl, Or.inr ⟨List.mem_cons_self .., ⟨r, rfl⟩⟩⟩
        · rw [upd_ne _ _ e]; exact ⟨Or.inl rfl, Or.inl rfl⟩
    | free c ds =>
      cases ds with
      | cons d ds =>
        simp only [Thread.step] at hs
        injection hs with hs; injection hs with e1 _; subst e1; exact ⟨Or.inl rfl, Or.inl rfl⟩
      | nil =>
        simp only [Thread.step] at hs
        injection hs with hs; injection hs with e1 _; subst e1
        exact ⟨Or.inl (hgone h c).1, Or.inl (hgone h c).2⟩

/-- A step keeps the shape of its own stack. -/
theorem step_shape {h h' : Heap} {t t' : Thread} {R A Q B : Nat → Nat} (hs : t.step h = some (h', t'))
    (ht : TInv t) (hi : HInvT h t R A Q B) (hown : ∀ n, ∀ d ∈ (h.node n).deps, d ∈ (h.node n).data)
    (hsh : Shape h.data t.stack) : Shape h.data t'.stack := by
  obtain ⟨stack, depth, list⟩ := t
  obtain ⟨k1, k2, k3⟩ := ht
  simp only at k1 k2 k3 hsh
  unfold HInvT at hi
  cases hsh with
  | base hb =>
    cases hb with
    | nil => cases hs
    | free c ds =>
      cases ds with
      | cons d ds =>
        simp only [Thread.step] at hs
        injection hs with hs; injection hs with _ e2; subst e2
        exact .rel d (.free c ds)
      | nil =>
        simp only [Thread.step] at hs
        injection hs with hs; injection hs with _ e2; subst e2
        exact .drain
  | drain =>
    cases list with
    | nil =>
      simp only [Thread.step] at hs
      injection hs with hs; injection hs with _ e2; subst e2
      exact .base .nil
    | cons x l =>
      simp only [Thread.step] at hs
      injection hs with hs; injection hs with _ e2; subst e2
      exact .base (.free x _)
  | rel c hb =>
    simp only [Thread.step] at hs
    split at hs
    · injection hs with hs; injection hs with _ e2; subst e2; exact .base hb
    · split at hs
      · injection hs with hs; injection hs with _ e2; subst e2
        exact .dtor hb (hown c)
      · injection hs with hs; injection hs with _ e2; subst e2; exact .base hb
  | @dtor b c ds hb hd =>
    cases ds with
    | cons d ds =>
      simp only [Thread.step] at hs
      injection hs with hs; injection hs with _ e2; subst e2
      exact .both hb (fun x hx => hd x (List.mem_cons_of_mem _ hx)) (hd d (List.mem_cons_self ..))
    | nil =>
      simp only [Thread.step] at hs
      by_cases h0 : depth = 0
      · rw [if_pos h0] at hs
        injection hs with hs; injection hs with _ e2; subst e2
        cases hb with
        | nil => exact .drain
        | free c' ds' =>
          exfalso
          simp only [sum_mk, List.map_cons, List.sum_cons, Frame.drains] at k1
          omega
      · rw [if_neg h0] at hs
        injection hs with hs; injection hs with _ e2; subst e2
        exact .base hb
  | @both b c d ds hb hds hd =>
    simp only [Thread.step] at hs
    have hR := hi.refs d
    simp only [sum_cons2, refs_rel, ind_self] at hR
    have hheld : 0 < h.held d := held_pos (hi.holder_lt (Or.inr hd)) (Or.inr hd)
    split at hs
    · omega
    · split at hs
      · omega
      · injection hs with hs; injection hs with _ e2; subst e2
        exact .dtor hb hds

theorem flat_pres {s s' : State} {a : Action} (hi : Inv s) (hf : Flat s) (hs : s.step a = some s')
    (ha : ∀ deps data f, a = .create deps data f → ∀ d ∈ deps, d ∈ data) : Flat s' := by
  cases a with
  | create deps data f =>
    simp only [State.step] at hs
    split at hs
    · injection hs with hs
      subst hs
      have e1 : ∀ n, n ≠ s.h.next → (s.h.create deps data f).node n =
          { s.h.node n with rc := (s.h.node n).rc + deps.count n } := by
        intro n hn; simp [Heap.create, hn]
      refine ⟨?_, ?_⟩
      · intro n
        show ∀ d ∈ ((s.h.create deps data f).node n).deps, d ∈ ((s.h.create deps data f).node n).data
        by_cases e : n = s.h.next
        · subst e
          simp only [Heap.create, if_true]
          exact ha deps data f rfl
        · rw [e1 n e]
          exact hf.own n
      · intro t ht
        refine (hf.shape t ht).mono ?_
        intro c hc
        show ((s.h.create deps data f).node c).data = _
        have hA : 0 < total (Thread.sum (Frame.dtors c)) s.ts := by
          have : t.sum (Frame.dtors c) ≤ total (Thread.sum (Frame.dtors c)) s.ts := total_le ht
          have e : t.sum (Frame.dtors c) = (t.stack.map (Frame.dtors c)).sum := rfl
          omega
        have := hi.1.lt (c := c) (Or.inr (Or.inl (by omega)))
        rw [e1 c (by omega)]
        rfl
    · cases hs
  | addRef c =>
    simp only [State.step] at hs
    split at hs
    · injection hs with hs
      subst hs
      have e1 : ∀ n, (upd s.h.node c { s.h.node c with rc := (s.h.node c).rc + 1 } n).deps = (s.h.node n).deps ∧
          (upd s.h.node c { s.h.node c with rc := (s.h.node c).rc + 1 } n).data = (s.h.node n).data := by
        intro n
        by_cases e : n = c
        · subst e; rw [upd_self]; exact ⟨rfl, rfl⟩
        · rw [upd_ne _ _ e]; exact ⟨rfl, rfl⟩
      refine ⟨?_, fun t ht => (hf.shape t ht).mono (fun c' _ => (e1 c').2)⟩
      intro n d hd
      show d ∈ (upd s.h.node c _ n).data
      rw [(e1 n).2]
      exact hf.own n d ((e1 n).1 ▸ hd)
    · cases hs
  | freeCore =>
    simp only [State.step] at hs
    split at hs
    · injection hs with hs
      subst hs
      refine ⟨?_, ?_⟩
      · show ∀ n, ∀ d ∈ ((Heap.decInst _).node n).deps, d ∈ ((Heap.decInst _).node n).data
        rw [decInst_node]
        exact hf.own
      · intro t ht
        refine (hf.shape t ht).mono (fun c _ => ?_)
        show ((Heap.decInst _).node c).data = _
        rw [decInst_node]
        rfl
    · cases hs
  | drop i c =>
    simp only [State.step] at hs
    split at hs
    · next t ht =>
      split at hs
      · next hc =>
        injection hs with hs
        subst hs
        obtain ⟨l, r, e1, e2⟩ := get_split ht
        refine ⟨hf.own, ?_⟩
        intro x hx
        rw [e2] at hx
        rcases List.mem_append.1 hx with hx | hx
        · exact hf.shape x (by rw [e1]; exact List.mem_append.2 (Or.inl hx))
        · rcases List.mem_cons.1 hx with hx | hx
          · subst hx
            have h1 := hf.shape t (by rw [e1]; simp)
            have hu := hc.1
            obtain ⟨st, dp, li⟩ := t
            show Shape s.h.data (.rel c :: st)
            cases h1 with
            | base hb => exact .rel c hb
            | drain => cases hu
            | rel d hb => cases hu
            | dtor hb _ => cases hu
            | both hb _ _ => cases hu
          · exact hf.shape x (by rw [e1]; exact List.mem_append.2 (Or.inr (List.mem_cons_of_mem _ hx)))
      · cases hs
    · cases hs
  | run i =>
    simp only [State.step] at hs
    split at hs
    · next t ht =>
      split at hs
      · next h' t' hst =>
        injection hs with hs
        subst hs
        obtain ⟨l, r, e1, e2⟩ := get_split ht
        have htm : t ∈ s.ts := by rw [e1]; simp
        have hinv := hi.1
        rw [e1] at hinv
        simp only [total_mid] at hinv
        have hown' : ∀ n, ∀ d ∈ (h'.node n).deps, d ∈ (h'.node n).data := by
          intro n d hd
          obtain ⟨g1, g2⟩ := step_node hst n
          rcases g1 with g1 | g1
          · rw [g1] at hd
            rcases g2 with g2 | ⟨g2, r', g3⟩
            · rw [g2]; exact hf.own n d hd
            · -- a filter in a free list has no dependencies left
              exfalso
              have h1 := hi.1.deps n (List.ne_nil_of_mem hd)
              have h2 : 0 < total (fun t => t.list.count n) s.ts := by
                have h3 := total_le (f := fun t => t.list.count n) htm
                have h4 := List.count_pos_iff.2 g2
                omega
              have h5 := hi.1.place n (hi.1.lt (Or.inl h1))
              unfold Node.alive at h5
              rw [if_neg h1] at h5
              omega
          · rw [g1] at hd; cases hd
        have hdata : ∀ c, 0 < total (Thread.sum (Frame.dtors c)) s.ts → h'.data c = s.h.data c := by
          intro c hc
          rcases (step_node hst c).2 with g2 | ⟨g2, _⟩
          · exact g2
          · exfalso
            have h2 : 0 < total (fun t => t.list.count c) s.ts := by
              have h3 := total_le (f := fun t => t.list.count c) htm
              have h4 := List.count_pos_iff.2 g2
              omega
            have h5 := hi.1.place c (hi.1.lt (Or.inr (Or.inl (by omega))))
            omega
        refine ⟨hown', ?_⟩
        intro x hx
        rw [e2] at hx
        have hother : ∀ y ∈ s.ts, Shape h'.data y.stack := by
          intro y hy
          refine (hf.shape y hy).mono (fun c hc => hdata c ?_)
          have h3 := total_le (f := Thread.sum (Frame.dtors c)) hy
          have e : y.sum (Frame.dtors c) = (y.stack.map (Frame.dtors c)).sum := rfl
          omega
        rcases List.mem_append.1 hx with hx | hx
        · exact hother x (by rw [e1]; exact List.mem_append.2 (Or.inl hx))
        · rcases List.mem_cons.1 hx with hx | hx
          · subst hx
            refine (step_shape hst (hi.2.2 t htm) hinv hf.own (hf.shape t htm)).mono ?_
            intro c hc
            rcases (step_node hst c).2 with g2 | ⟨g2, r', g3⟩
            · exact g2
            · -- after a step of the loop no destructor is in progress here
              exfalso
              have h1 := hf.shape t htm
              rw [g3] at h1
              have hr : r' = [] := by
                cases h1 with
                | base hb => cases hb
                | drain => rfl
              subst hr
              obtain ⟨st, dp, li⟩ := t
              simp only at g3 g2
              subst g3
              cases li with
              | nil => cases g2
              | cons y li =>
                simp only [Thread.step] at hst
                injection hst with hst; injection hst with _ e4; subst e4
                simp [Frame.dtors] at hc
          · exact hother x (by rw [e1]; exact List.mem_append.2 (Or.inr (List.mem_cons_of_mem _ hx)))
      · cases hs
    · cases hs

theorem run_flat {threads : Nat} {as : List Action} {s : State} (h : Run threads as s) (ho : Owns as) : Flat s := by
  induction h with
  | nil =>
    refine ⟨fun n d hd => (nomatch hd), fun t ht => ?_⟩
    rw [(List.mem_replicate.1 ht).2]
    exact .base .nil
  | @snoc as s s' a hr hs ih =>
    refine flat_pres (run_inv hr) (ih (fun deps data f hm => ho deps data f (List.mem_append.2 (Or.inl hm)))) hs ?_
    intro deps data f e
    exact ho deps data f (List.mem_append.2 (Or.inr (List.mem_singleton.2 e.symm)))

/-- A filter in the trace comes from an action of the history. -/
theorem created_owns {threads : Nat} {as : List Action} {s : State} (h : Run threads as s) (ho : Owns as)
    {d n : Nat} {deps data : List Nat} {f : Bool} (hm : .created n deps data f ∈ s.h.trace) (hd : d ∈ deps) :
    d ∈ data := by
  induction h with
  | nil => cases hm
  | @snoc as s s' a hr hs ih =>
    have ho' : Owns as := fun deps data f hx => ho deps data f (List.mem_append.2 (Or.inl hx))
    have hdec : ∀ g : Heap, .created n deps data f ∈ g.decInst.trace → .created n deps data f ∈ g.trace := by
      intro g hg
      unfold Heap.decInst at hg
      split at hg
      · exact hg
      · split at hg
        · rcases emit_mem.1 hg with hg | hg
          · exact hg
          · cases hg
        · exact hg
    have htouch : ∀ g : Heap, g.touch.trace = g.trace := by
      intro g; unfold Heap.touch; split <;> rfl
    cases a with
    | create ds xs g =>
      simp only [State.step] at hs
      split at hs
      · injection hs with hs
        subst hs
        rcases emit_mem.1 hm with hm | hm
        · exact ih ho' hm
        · injection hm with _ e1 e2 e3
          subst e1 e2 e3
          exact ho deps data f (List.mem_append.2 (Or.inr (List.mem_singleton.2 rfl))) d hd
      · cases hs
    | addRef c =>
      simp only [State.step] at hs
      split at hs
      · injection hs with hs; subst hs; exact ih ho' hm
      · cases hs
    | freeCore =>
      simp only [State.step] at hs
      split at hs
      · injection hs with hs
        subst hs
        rcases emit_mem.1 (hdec _ hm) with hm | hm
        · exact ih ho' hm
        · cases hm
      · cases hs
    | drop i c =>
      simp only [State.step] at hs
      split at hs
      · split at hs
        · injection hs with hs; subst hs; exact ih ho' hm
        · cases hs
      · cases hs
    | run i =>
      simp only [State.step] at hs
      split at hs
      · next t ht =>
        split at hs
        · next h' t' hst =>
          injection hs with hs
          subst hs
          refine ih ho' ?_
          have hm' : Event.created n deps data f ∈ h'.trace := hm
          clear hm ih
          obtain ⟨stack, depth, list⟩ := t
          cases stack with
          | nil => cases hst
          | cons a r =>
            cases a with
            | rel c =>
              simp only [Thread.step] at hst
              split at hst
              · injection hst with hst; injection hst with e1 _; subst e1; exact hm'
              · split at hst
                · injection hst with hst; injection hst with e1 _; subst e1; rw [htouch] at hm'; exact hm'
                · injection hst with hst; injection hst with e1 _; subst e1; exact hm'
            | dtor c ds =>
              cases ds with
              | cons d ds =>
                simp only [Thread.step] at hst
                injection hst with hst; injection hst with e1 _; subst e1; exact hm'
              | nil =>
                simp only [Thread.step] at hst
                have hfin : ∀ g : Heap, (.created n deps data f ∈ g.trace → Event.created n deps data f ∈ s.h.trace) →
                    ∀ l, (if depth = 0 then some (g, Thread.mk (.drain :: r) 1 l) else some (g, Thread.mk r depth l)) =
                      some (h', t') → Event.created n deps data f ∈ s.h.trace := by
                  intro g hg l h2
                  split at h2
                  · injection h2 with h2; injection h2 with e1 _; subst e1; exact hg hm'
                  · injection h2 with h2; injection h2 with e1 _; subst e1; exact hg hm'
                refine hfin _ ?_ _ hst
                intro hg
                split at hg
                · rw [htouch] at hg; exact hg
                · have := hdec _ hg
                  have e : ((s.h.touch).setNode c { s.h.touch.node c with gone := true }).trace = s.h.touch.trace := rfl
                  rw [e, htouch] at this
                  exact this
            | drain =>
              cases list with
              | nil =>
                simp only [Thread.step] at hst
                injection hst with hst; injection hst with e1 _; subst e1; exact hm'
              | cons x l =>
                simp only [Thread.step] at hst
                injection hst with hst; injection hst with e1 _; subst e1
                rw [htouch] at hm'
                rcases emit_mem.1 hm' with hm' | hm'
                · exact hm'
                · cases hm'
            | free c ds =>
              cases ds with
              | cons d ds =>
                simp only [Thread.step] at hst
                injection hst with hst; injection hst with e1 _; subst e1; exact hm'
              | nil =>
                simp only [Thread.step] at hst
                injection hst with hst; injection hst with e1 _; subst e1
                exact hdec (s.h.setNode c { s.h.node c with gone := true }) hm'
        · cases hs
      · cases hs

end VS.Life
