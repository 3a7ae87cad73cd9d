import Verif.Pool.Serial
import Verif.Pool.Spec

/-!
# Traces
-/

namespace VS.Pool

variable {F L : Type}

/-! ## Which events a step adds -/

theorem eff_trace {g : Graph F L} {s s' : State F L} {a : Action F L} (e : Eff g s s' a) :
    ∃ es, s'.trace = s.trace ++ es := by
  cases e with
  | request k reserve e => exact ⟨_, e.trace⟩
  | setFlush e => subst e; exact ⟨[], by simp⟩
  | hit _ _ _ _ e => exact ⟨_, e.trace⟩
  | call e => exact ⟨_, e.trace⟩
  | swap _ _ _ _ _ e => subst e; exact ⟨[], by simp [State.swap]⟩
  | ret e => exact ⟨_, e.trace⟩
  | done _ _ e => exact ⟨_, e.trace⟩
  | wait e => obtain ⟨es, h, _⟩ := e.trace; exact ⟨es, h⟩
  | callback _ e => subst e; exact ⟨_, rfl⟩

theorem eff_mem {g : Graph F L} {s s' : State F L} {a : Action F L} (e : Eff g s s' a) {x : Event F}
    (h : x ∈ s.trace) : x ∈ s'.trace := by
  obtain ⟨es, he⟩ := eff_trace e
  rw [he]; exact List.mem_append_left _ h

theorem eff_next {g : Graph F L} {s s' : State F L} {a : Action F L} (e : Eff g s s' a) : s.next ≤ s'.next := by
  cases e with
  | request k reserve e => rw [e.next]; exact Nat.le_succ _
  | setFlush e => subst e; exact Nat.le_refl _
  | hit _ _ _ _ e => rw [e.rest.next]; exact Nat.le_refl _
  | call e => rw [e.next]; exact Nat.le_refl _
  | swap _ _ _ _ _ e => subst e; exact Nat.le_refl _
  | ret e => rw [e.next]; exact Nat.le_refl _
  | done _ _ e => rw [e.rest.next]; exact Nat.le_refl _
  | wait e => exact e.next
  | callback _ e => subst e; exact Nat.le_refl _

/-- What never changes in a computation. -/
theorem eff_key {g : Graph F L} {s s' : State F L} {a : Action F L} (e : Eff g s s' a) {c : Nat}
    (hc : c < s.next) : (s'.ctx c).key = (s.ctx c).key ∧ (s'.ctx c).external = (s.ctx c).external := by
  cases e with
  | request k reserve e => rw [e.other c (Nat.ne_of_lt hc)]; exact ⟨rfl, rfl⟩
  | setFlush e => subst e; exact ⟨rfl, rfl⟩
  | hit _ _ _ _ e => exact ⟨(e.gets c).same.key, (e.gets c).same.external⟩
  | @call _ _ d _ e =>
    by_cases ec : c = d
    · subst ec; rw [e.self]; exact ⟨rfl, rfl⟩
    · rw [e.other c ec]; exact ⟨rfl, rfl⟩
  | swap _ _ _ _ _ e => subst e; exact ⟨rfl, rfl⟩
  | @ret o j e =>
    by_cases ec : c = j.c
    · subst ec; rw [e.self]; exact ⟨rfl, rfl⟩
    · rw [e.other c ec]; exact ⟨rfl, rfl⟩
  | done _ _ e => exact ⟨(e.gets c).same.key, (e.gets c).same.external⟩
  | @wait d e =>
    by_cases ec : c = d
    · subst ec; exact ⟨e.self.key, e.self.external⟩
    · exact ⟨(e.old c hc ec).key, (e.old c hc ec).external⟩
  | callback _ e => subst e; exact ⟨rfl, rfl⟩

/-- The computation an event is about and what it says about it. -/
def EvOK (s : State F L) : Event F → Prop
  | .request c k => c < s.next ∧ (s.ctx c).key = k ∧ (s.ctx c).external = true
  | .call c k _ _ => c < s.next ∧ (s.ctx c).key = k
  | .ret c k _ _ _ => c < s.next ∧ (s.ctx c).key = k
  | .attach c q d => c < s.next ∧ d < s.next ∧ (s.ctx d).key = q
  | .finish c k _ => c < s.next ∧ (s.ctx c).key = k
  | .callback c k _ => c < s.next ∧ (s.ctx c).key = k ∧ (s.ctx c).external = true

theorem EvOK.mono {g : Graph F L} {s s' : State F L} {a : Action F L} (e : Eff g s s' a) {x : Event F}
    (h : EvOK s x) : EvOK s' x := by
  have hn := eff_next e
  cases x with
  | request c k =>
    obtain ⟨h1, h2, h3⟩ := h
    obtain ⟨k1, k2⟩ := eff_key e h1
    exact ⟨by omega, k1.trans h2, k2.trans h3⟩
  | call c k r av => exact ⟨by have := h.1; omega, (eff_key e h.1).1.trans h.2⟩
  | ret c k q er f => exact ⟨by have := h.1; omega, (eff_key e h.1).1.trans h.2⟩
  | attach c q d => exact ⟨by have := h.1; omega, by have := h.2.1; omega, (eff_key e h.2.1).1.trans h.2.2⟩
  | finish c k r => exact ⟨by have := h.1; omega, (eff_key e h.1).1.trans h.2⟩
  | callback c k r =>
    obtain ⟨h1, h2, h3⟩ := h
    obtain ⟨k1, k2⟩ := eff_key e h1
    exact ⟨by omega, k1.trans h2, k2.trans h3⟩

/-- Every new event is right about its computation. -/
theorem ev_new {g : Graph F L} {s s' : State F L} {a : Action F L} (h : Acc g s []) (h' : Acc g s' [])
    (e : Eff g s s' a) (ho : ∀ x ∈ s.trace, EvOK s x) : ∀ x ∈ s'.trace, EvOK s' x := by
  have hone : ∀ ev, s'.trace = s.trace ++ [ev] → EvOK s' ev → ∀ x ∈ s'.trace, EvOK s' x := by
    intro ev ht hev x hx
    rw [ht] at hx
    rcases List.mem_append.1 hx with hx | hx
    · exact (ho x hx).mono e
    · rw [List.mem_singleton.1 hx]; exact hev
  have hend : ∀ c r, EndEff s s' c r → EvOK s' (.finish c (s.ctx c).key r) := by
    intro c r e'
    exact ⟨by rw [e'.rest.next]; exact h.lt c (e'.lists h), (e'.gets c).same.key⟩
  cases he : e with
  | request k reserve e' =>
    refine hone _ e'.trace ⟨by rw [e'.next]; exact Nat.lt_succ_self _, ?_, ?_⟩
    · rw [e'.self]; rfl
    · rw [e'.self]; rfl
  | setFlush e' =>
    intro x hx
    exact (ho x (by rw [e'] at hx; exact hx)).mono e
  | hit _ _ _ _ e' => exact hone _ e'.trace (hend _ _ e')
  | @call _ _ c _ e' =>
    refine hone _ e'.trace ⟨by rw [e'.next]; exact h.lt c (h.mem_lists.2 (.inl e'.mem)), ?_⟩
    rw [e'.self]
  | swap _ _ _ _ _ e' =>
    intro x hx
    exact (ho x (by rw [e'] at hx; exact hx)).mono e
  | @ret o j e' =>
    refine hone _ e'.trace ⟨?_, ?_⟩
    · rw [e'.next]
      exact h.lt _ (h.mem_lists.2 (.inr (.inr (.inl (List.mem_map.2 ⟨_, e'.mem, rfl⟩)))))
    · rw [e'.self]; rfl
  | done _ _ e' => exact hone _ e'.trace (hend _ _ e')
  | @wait c e' =>
    obtain ⟨es, ht, h1, _⟩ := e'.trace
    intro x hx
    rw [ht] at hx
    rcases List.mem_append.1 hx with hx | hx
    · exact (ho x hx).mono e
    · obtain ⟨q, d, rfl, _, h3, _⟩ := h1 x hx
      have := h'.all_ok _ h3
      exact ⟨Nat.lt_of_lt_of_le (e'.lt h) e'.next, this.1, this.2.1⟩
  | @callback p hp e' =>
    have hlt : p.1 < s.next := h.lt _ (h.mem_lists.2 (.inr (.inr (.inr (.inr (List.mem_map.2 ⟨_, hp, rfl⟩))))))
    refine hone (.callback p.1 (s.ctx p.1).key p.2) (by rw [e']; rfl) ⟨?_, ?_, ?_⟩
    · rw [e']; exact hlt
    · rw [e']; rfl
    · rw [e']; exact h.ret_ext p hp

/-! ## Each thing happens once -/

/-- No two events of a kind `p` name the same computation. -/
def Once (p : Event F → Option Nat) (t : List (Event F)) : Prop :=
  t.Pairwise fun a b => ∀ c, p a = some c → p b ≠ some c

theorem Once.snoc {p : Event F → Option Nat} {t : List (Event F)} {e : Event F} (h : Once p t)
    (hn : ∀ c, p e = some c → ∀ x ∈ t, p x ≠ some c) : Once p (t ++ [e]) := by
  unfold Once
  rw [List.pairwise_append]
  refine ⟨h, List.pairwise_singleton _ _, ?_⟩
  intro a ha b hb c hc hc'
  rw [List.mem_singleton.1 hb] at hc'
  exact hn c hc' a ha hc

theorem Once.append {p : Event F → Option Nat} {t es : List (Event F)} (h : Once p t)
    (hn : ∀ x ∈ es, p x = none) : Once p (t ++ es) := by
  unfold Once
  rw [List.pairwise_append]
  refine ⟨h, ?_, ?_⟩
  · rw [List.pairwise_iff_getElem]
    intro i j hi hj _ c hc
    rw [hn _ (List.getElem_mem hi)] at hc
    cases hc
  · intro a _ b hb c _ hc'
    rw [hn b hb] at hc'
    cases hc'

theorem Once.split {p : Event F → Option Nat} {t1 t2 : List (Event F)} {e : Event F} {c : Nat}
    (h : Once p (t1 ++ e :: t2)) (he : p e = some c) : (∀ x ∈ t1, p x ≠ some c) ∧ ∀ x ∈ t2, p x ≠ some c := by
  unfold Once at h
  rw [List.pairwise_append, List.pairwise_cons] at h
  exact ⟨fun x hx hc => h.2.2 x hx e (List.mem_cons_self ..) c hc he, fun x hx => h.2.1.1 x hx c he⟩

def Event.requestOf : Event F → Option Nat
  | .request c _ => some c
  | _ => none

def Event.finishOf : Event F → Option Nat
  | .finish c _ _ => some c
  | _ => none

def Event.callbackOf : Event F → Option Nat
  | .callback c _ _ => some c
  | _ => none

/-- The error of a computation with this result. -/
def errOf : Except String F → Option String
  | .ok _ => none
  | .error m => some m

theorem errOf_done {x : Option String} {f : Option F} {r : Except String F} (h : match x with
    | some m => r = .error m
    | none => ∃ y, f = some y ∧ r = .ok y) : x = errOf r := by
  cases x with
  | some m => simp only at h; subst h; rfl
  | none => obtain ⟨_, _, rfl⟩ := h; rfl

/-- What a finished computation looks like. -/
def Over (s : State F L) (c : Nat) (r : Except String F) : Prop :=
  c ∉ s.tasks ∧ c ∉ s.alt ∧ c ∉ s.running.map Job.c ∧ c ∉ s.finished.map Prod.fst ∧ (s.ctx c).pending = 0 ∧
  (∀ e ∈ s.all, e.2 ≠ c) ∧ (s.ctx c).error = errOf r

structure Tr1 (g : Graph F L) (s : State F L) : Prop where
  ev : ∀ x ∈ s.trace, EvOK s x
  req : ∀ c < s.next, (s.ctx c).external = true → .request c (s.ctx c).key ∈ s.trace
  reqOnce : Once Event.requestOf s.trace
  over : ∀ c k r, .finish c k r ∈ s.trace → Over s c r
  finOnce : Once Event.finishOf s.trace
  ret : ∀ p ∈ s.returning, .finish p.1 (s.ctx p.1).key p.2 ∈ s.trace
  cb : ∀ c k r, .callback c k r ∈ s.trace → .finish c k r ∈ s.trace
  cbOnce : Once Event.callbackOf s.trace

theorem init_tr1 (g : Graph F L) : Tr1 g (State.init g) := by
  refine ⟨?_, ?_, List.Pairwise.nil, ?_, List.Pairwise.nil, ?_, ?_, List.Pairwise.nil⟩
  · intro x hx; cases hx
  · intro c hc; cases hc
  · intro c k r hx; cases hx
  · intro p hp; cases hp
  · intro c k r hx; cases hx

/-- A finished computation stays as it is. -/
theorem Over.mono {g : Graph F L} {s s' : State F L} {a : Action F L} (h : Acc g s []) (e : Eff g s s' a) {c : Nat}
    {r : Except String F} (hc : c < s.next) (ho : Over s c r) : Over s' c r := by
  obtain ⟨h1, h2, h3, h4, h5, h6, h7⟩ := ho
  have hend : ∀ d r', EndEff s s' d r' → Over s' c r := by
    intro d r' e'
    have hx := e'.other h h5
    refine ⟨?_, by rw [e'.rest.alt]; exact h2, by rw [e'.rest.running]; exact h3, ?_, by rw [hx]; exact h5,
      fun x hx => h6 x ((e'.all x).1 hx).1, by rw [hx]; exact h7⟩
    · rw [e'.tasks]
      rintro (⟨ht, _⟩ | ⟨ht, _⟩)
      · exact h1 ht
      · have := (h.pending_of_notify (e'.lists h) ht).1
        omega
    · intro hm
      obtain ⟨p, hp, hpc⟩ := List.mem_map.1 hm
      exact h4 (List.mem_map.2 ⟨p, ((e'.finished p).1 hp).1, hpc⟩)
  cases e with
  | request k reserve e =>
    unfold Over; rw [e.running, e.finished, e.all, e.other c (Nat.ne_of_lt hc)]
    have ht : c ∉ s'.tasks ∧ c ∉ s'.alt := by
      rcases e.tasks with ⟨_, _, b1, b2⟩ | ⟨_, b1, b2⟩
      · rw [b1, b2, List.mem_append, List.mem_singleton]
        exact ⟨h1, fun hx => hx.elim h2 (Nat.ne_of_lt hc)⟩
      · rw [b1, b2, List.mem_append, List.mem_singleton]
        exact ⟨fun hx => hx.elim h1 (Nat.ne_of_lt hc), h2⟩
    exact ⟨ht.1, ht.2, h3, h4, h5, h6, h7⟩
  | setFlush e => subst e; exact ⟨h1, h2, h3, h4, h5, h6, h7⟩
  | hit _ _ _ _ e => exact hend _ _ e
  | @call _ _ d _ e =>
    have ec : c ≠ d := fun ec => h1 (ec ▸ e.mem)
    unfold Over; rw [e.alt, e.running, e.finished, e.all, e.other c ec, e.tasks]
    refine ⟨fun hx => h1 hx.1, h2, ?_, h4, h5, h6, h7⟩
    rw [List.map_cons, List.mem_cons]
    rintro (hx | hx)
    · exact ec hx
    · exact h3 hx
  | swap _ _ _ _ _ e => subst e; exact ⟨h2, h1, h3, h4, h5, h6, h7⟩
  | @ret o j e =>
    have ec : c ≠ j.c := fun ec => h3 (List.mem_map.2 ⟨j, e.mem, ec.symm⟩)
    unfold Over; rw [e.alt, e.finished, e.all, e.other c ec, e.tasks]
    refine ⟨h1, h2, ?_, ?_, h5, h6, h7⟩
    · intro hx
      obtain ⟨i, hi, hic⟩ := List.mem_map.1 hx
      exact h3 (List.mem_map.2 ⟨i, ((e.running i).1 hi).1, hic⟩)
    · rw [List.map_cons, List.mem_cons]
      rintro (hx | hx)
      · exact ec hx
      · exact h4 hx
  | done _ _ e => exact hend _ _ e
  | @wait d e =>
    have ec : c ≠ d := fun ec => h4 (List.mem_map.2 ⟨_, e.mem, ec.symm⟩)
    have gr := e.old c hc ec
    unfold Over; rw [e.alt, e.running, e.tasks, gr.pending, gr.error]
    refine ⟨?_, h2, h3, ?_, h5, ?_, h7⟩
    · rintro (hx | hx)
      · exact h1 hx
      · omega
    · intro hm
      obtain ⟨p, hp, hpc⟩ := List.mem_map.1 hm
      exact h4 (List.mem_map.2 ⟨p, ((e.finished p).1 hp).1, hpc⟩)
    · intro x hx
      rcases e.all x hx with h8 | h8
      · exact h6 x h8
      · omega
  | callback _ e => subst e; exact ⟨h1, h2, h3, h4, h5, h6, h7⟩

/-- The end of a computation. -/
theorem EndEff.over {g : Graph F L} {s s' : State F L} {c : Nat} {r : Except String F} (h : Acc g s [])
    (e : EndEff s s' c r) (hr : (s.ctx c).error = errOf r) : Over s' c r := by
  have hcl := e.lists h
  have hp0 := h.idle c hcl
  have hx := e.other h hp0
  have hself : c ∉ (s.ctx c).notify := fun hm => (h.pending_of_notify hcl hm).2.2 rfl
  have hrun : c ∉ s.alt ∧ c ∉ s.running.map Job.c := by
    rcases e.work with h1 | h1
    · exact ⟨(h.disj_tasks h1).1, (h.disj_tasks h1).2.1⟩
    · exact ⟨(h.disj_fin h1).2.1, (h.disj_fin h1).2.2.1⟩
  refine ⟨?_, by rw [e.rest.alt]; exact hrun.1, by rw [e.rest.running]; exact hrun.2, ?_, by rw [hx]; exact hp0,
    fun y hy => ((e.all y).1 hy).2, ?_⟩
  · rw [e.tasks]
    rintro (h1 | h1)
    · exact h1.2 rfl
    · exact hself h1.1
  · intro hm
    obtain ⟨p, hp, hpc⟩ := List.mem_map.1 hm
    exact ((e.finished p).1 hp).2 hpc
  · rw [hx]; exact hr

theorem step_tr1 {g : Graph F L} {s s' : State F L} {a : Action F L} (h : Acc g s []) (h' : Acc g s' [])
    (ht : Tr1 g s) (e : Eff g s s' a) : Tr1 g s' := by
  have hev := ev_new h h' e ht.ev
  have hover : ∀ c k r, .finish c k r ∈ s.trace → Over s' c r := fun c k r hx =>
    (ht.over c k r hx).mono h e (ht.ev _ hx).1
  have hreq : ∀ c < s.next, (s'.ctx c).external = true → .request c (s'.ctx c).key ∈ s'.trace := by
    intro c hc hx
    obtain ⟨k1, k2⟩ := eff_key e hc
    rw [k1]
    rw [k2] at hx
    exact eff_mem e (ht.req c hc hx)
  -- the end of a computation
  have hend : ∀ c r, EndEff s s' c r → (s.ctx c).error = errOf r → Tr1 g s' := by
    intro c r e' hr
    have hnew : ∀ k r', .finish c k r' ∉ s.trace := by
      intro k r' hx
      obtain ⟨o1, _, _, o4, _⟩ := ht.over c k r' hx
      rcases e'.work with h1 | h1
      · exact o1 h1
      · exact o4 h1
    refine ⟨hev, ?_, ?_, ?_, ?_, ?_, ?_, ?_⟩
    · intro x hx; exact hreq x (by rw [e'.rest.next] at hx; exact hx)
    · rw [e'.trace]; exact ht.reqOnce.append (by intro x hx; rw [List.mem_singleton.1 hx]; rfl)
    · intro c' k' r' hx
      rw [e'.trace] at hx
      rcases List.mem_append.1 hx with hx | hx
      · exact hover c' k' r' hx
      · have := List.mem_singleton.1 hx
        injection this with e1 e2 e3
        subst e1; subst e3
        exact e'.over h hr
    · rw [e'.trace]
      refine ht.finOnce.snoc ?_
      intro c' hc' x hx hx'
      injection hc' with hc'
      subst hc'
      cases x with
      | finish c2 k2 r2 =>
        injection hx' with hx'
        subst hx'
        exact hnew _ _ hx
      | _ => cases hx'
    · rw [e'.returning, e'.trace]
      intro p hp
      rcases List.mem_append.1 hp with hp | hp
      · split at hp
        · rw [List.mem_singleton.1 hp]
          simp only
          rw [(e'.gets c).same.key]
          exact List.mem_append_right _ (List.mem_singleton.2 rfl)
        · cases hp
      · rw [(e'.gets p.1).same.key]
        exact List.mem_append_left _ (ht.ret p hp)
    · intro c' k' r' hx
      rw [e'.trace] at hx ⊢
      rcases List.mem_append.1 hx with hx | hx
      · exact List.mem_append_left _ (ht.cb c' k' r' hx)
      · cases List.mem_singleton.1 hx
    · rw [e'.trace]; exact ht.cbOnce.append (by intro x hx; rw [List.mem_singleton.1 hx]; rfl)
  -- steps that add other events
  have hother : ∀ es, s'.trace = s.trace ++ es → s'.next = s.next ∨ (∀ c, s.next ≤ c → (s'.ctx c).external = false) →
      (∀ x ∈ es, x.requestOf = none ∧ x.finishOf = none ∧ x.callbackOf = none) →
      s'.returning = s.returning → Tr1 g s' := by
    intro es he hn hx hr
    refine ⟨hev, ?_, ?_, ?_, ?_, ?_, ?_, ?_⟩
    · intro c hc hce
      rcases hn with hn | hn
      · exact hreq c (by omega) hce
      · by_cases hcn : c < s.next
        · exact hreq c hcn hce
        · rw [hn c (by omega)] at hce; cases hce
    · rw [he]; exact ht.reqOnce.append (fun x hm => (hx x hm).1)
    · intro c k r hm
      rw [he] at hm
      rcases List.mem_append.1 hm with hm | hm
      · exact hover c k r hm
      · have := (hx _ hm).2.1; cases this
    · rw [he]; exact ht.finOnce.append (fun x hm => (hx x hm).2.1)
    · rw [hr]
      intro p hp
      have := eff_mem e (ht.ret p hp)
      rw [(eff_key e (ht.ev _ (ht.ret p hp)).1).1]
      exact this
    · intro c k r hm
      rw [he] at hm
      rcases List.mem_append.1 hm with hm | hm
      · exact eff_mem e (ht.cb c k r hm)
      · have := (hx _ hm).2.2; cases this
    · rw [he]; exact ht.cbOnce.append (fun x hm => (hx x hm).2.2)
  cases he : e with
  | request k reserve e' =>
    refine ⟨hev, ?_, ?_, ?_, ?_, ?_, ?_, ?_⟩
    · intro c hc hce
      by_cases ec : c = s.next
      · rw [ec, e'.self, e'.trace]
        exact List.mem_append_right _ (List.mem_singleton.2 rfl)
      · rw [e'.next] at hc
        exact hreq c (by omega) hce
    · rw [e'.trace]
      refine ht.reqOnce.snoc ?_
      intro c hc x hx hx'
      injection hc with hc
      subst hc
      cases x with
      | request c2 k2 =>
        injection hx' with hx'
        subst hx'
        exact absurd (ht.ev _ hx).1 (Nat.lt_irrefl _)
      | _ => cases hx'
    · intro c k' r hm
      rw [e'.trace] at hm
      rcases List.mem_append.1 hm with hm | hm
      · exact hover c k' r hm
      · cases List.mem_singleton.1 hm
    · rw [e'.trace]; exact ht.finOnce.append (by intro x hx; rw [List.mem_singleton.1 hx]; rfl)
    · rw [e'.returning]
      intro p hp
      rw [(eff_key e (ht.ev _ (ht.ret p hp)).1).1]
      exact eff_mem e (ht.ret p hp)
    · intro c k' r hm
      rw [e'.trace] at hm
      rcases List.mem_append.1 hm with hm | hm
      · exact eff_mem e (ht.cb c k' r hm)
      · cases List.mem_singleton.1 hm
    · rw [e'.trace]; exact ht.cbOnce.append (by intro x hx; rw [List.mem_singleton.1 hx]; rfl)
  | setFlush e' =>
    exact hother [] (by rw [e']; simp) (.inl (by rw [e'])) (fun x hx => nomatch hx) (by rw [e'])
  | hit hc hf hh hr e' =>
    refine hend _ _ e' ?_
    subst hr
    cases (s.ctx _).error <;> rfl
  | call e' =>
    exact hother _ e'.trace (.inl e'.next) (by intro x hx; rw [List.mem_singleton.1 hx]; exact ⟨rfl, rfl, rfl⟩)
      e'.returning
  | swap _ _ _ _ _ e' =>
    exact hother [] (by rw [e']; simp [State.swap]) (.inl (by rw [e']; rfl)) (fun x hx => nomatch hx) (by rw [e']; rfl)
  | ret e' =>
    exact hother _ e'.trace (.inl e'.next) (by intro x hx; rw [List.mem_singleton.1 hx]; exact ⟨rfl, rfl, rfl⟩)
      e'.returning
  | done hp hr e' =>
    exact hend _ _ e' (errOf_done hr)
  | wait e' =>
    obtain ⟨es, h1, h2, _⟩ := e'.trace
    refine hother es h1 (.inr ?_) ?_ e'.returning
    · intro c hc
      by_cases hcn : c < s'.next
      · exact (e'.new c hc hcn).1.external
      · rw [h'.blank c (by omega)]; rfl
    · intro x hx
      obtain ⟨q, d, rfl, _⟩ := h2 x hx
      exact ⟨rfl, rfl, rfl⟩
  | @callback p hp e' =>
    have htr : s'.trace = s.trace ++ [.callback p.1 (s.ctx p.1).key p.2] := by rw [e']; rfl
    have hctx : s'.ctx = s.ctx := by rw [e']; rfl
    refine ⟨hev, ?_, ?_, ?_, ?_, ?_, ?_, ?_⟩
    · intro c hc; exact hreq c (by rw [e'] at hc; exact hc)
    · rw [htr]; exact ht.reqOnce.append (by intro x hx; rw [List.mem_singleton.1 hx]; rfl)
    · intro c k' r hm
      rw [htr] at hm
      rcases List.mem_append.1 hm with hm | hm
      · exact hover c k' r hm
      · cases List.mem_singleton.1 hm
    · rw [htr]; exact ht.finOnce.append (by intro x hx; rw [List.mem_singleton.1 hx]; rfl)
    · intro q hq
      have : q ∈ s.returning := by
        rw [e'] at hq
        exact List.mem_of_mem_eraseP hq
      rw [hctx]
      exact eff_mem e (ht.ret q this)
    · intro c k' r hm
      rw [htr] at hm
      rcases List.mem_append.1 hm with hm | hm
      · exact eff_mem e (ht.cb c k' r hm)
      · have := List.mem_singleton.1 hm
        injection this with e1 e2 e3
        subst e1; subst e2; subst e3
        exact eff_mem e (ht.ret p hp)
    · rw [htr]
      refine ht.cbOnce.snoc ?_
      intro c hc x hx hx'
      injection hc with hc
      subst hc
      cases x with
      | callback c2 k2 r2 =>
        injection hx' with hx'
        subst hx'
        have := (h.ans_out p.1 ⟨_, _, hx⟩).2.1
        exact this (h.mem_lists.2 (.inr (.inr (.inr (.inr (List.mem_map.2 ⟨_, hp, rfl⟩))))))
      | _ => cases hx'

end VS.Pool
