import Verif.Work.Props
import Verif.Pool.PropsDet

/-!
# Examples, and where threads do get stuck
-/

namespace VS.Work

open VS.Pool (Key Graph Outcome Job Answered Event Fn adder adder_acyclic)

variable {F L : Type}

/-- A worker that cannot take a step by itself. -/
def State.halted (s : State F L) (w : Worker) : Bool :=
  match w with
  | ⟨_, some c⟩ => !answered s.pool c
  | ⟨.sleep, none⟩ => true
  | ⟨.gone, none⟩ => true
  | ⟨.out c, none⟩ => s.cbLock && decide (c ∈ s.async)
  | _ => false

/-- If no worker can take a step, nobody is at work. -/
theorem not_busy {g : Graph F L} {s : State F L} (h : s.ws.all s.halted = true) : ¬ Busy g s := by
  have key : ∀ {i : Nat} {w : Worker}, s.ws[i]? = some w → s.halted w = true :=
    fun hw => List.all_eq_true.1 h _ (List.mem_of_getElem? hw)
  rintro (@⟨i, c, hw⟩ | @⟨i, a, s', ha, _, hs⟩)
  · have := key hw; cases this
  · obtain ⟨_, m⟩ := move_of_step hs
    cases m with
    | request => cases ha
    | block => cases ha
    | ret => cases ha
    | spurious => cases ha
    | threads => cases ha
    | stop => cases ha
    | unblock hw hx =>
      have := key hw
      unfold State.halted at this
      simp only [Bool.not_eq_true'] at this
      rw [answered_iff.2 hx] at this; cases this
    | idle hw _ => have := key hw; cases this
    | call hw _ => have := key hw; cases this
    | hitExt hw _ _ => have := key hw; cases this
    | hitInt hw _ _ => have := key hw; cases this
    | out hw _ _ _ => have := key hw; cases this
    | next hw _ _ _ => have := key hw; cases this
    | fatal hw _ _ => have := key hw; cases this
    | enterLock hw _ hl =>
      have := key hw
      simp [State.halted, hl] at this
    | enter hw hc =>
      have := key hw
      simp [State.halted, hc] at this
    | leave hw _ _ => have := key hw; cases this
    | resume hw => have := key hw; cases this
    | doze hw _ _ => have := key hw; cases this
    | wake hw => have := key hw; cases this

/-! ## Examples -/

/-- Two requests on two threads: a filter that calls `getFrame`, and one that does not. -/
def twoThreads : List Act :=
  [.request (1, 0) true, .request (1, 1) true, .scan 0, .scan 1, .block 0 (0, 2), .scan 2, .ret 2, .complete 2, .enter 2,
    .leave 2, .unblock 0, .ret 1]

/-- Where the threads are after that. -/
example : (exec (adder.toFn id) (Act.calm id) (State.init (adder.graph id) 2) twoThreads).map (fun s => (s.ws, s.active, s.idle)) =
    some ([⟨.call 0, none⟩, ⟨.back 1, none⟩, ⟨.told 2, none⟩], 2, 0) := by decide +kernel

/-- The hypotheses of C85, with a worker that waits in `getFrame`. -/
example : ∃ as s, Sched (adder.graph id) 2 (Calm id) as s ∧ s.pool.dead = none ∧ s.stop = false ∧
    .request 0 (1, 0) ∈ s.pool.trace ∧ ¬ Told s.pool.trace 0 ∧ ⟨.call 0, some 2⟩ ∈ s.ws := by
  have h : (exec (adder.toFn id) (Act.calm id) (State.init (adder.graph id) 2) (twoThreads.take 6)).any (fun s => decide
      (s.pool.dead = none ∧ s.stop = false ∧ .request 0 (1, 0) ∈ s.pool.trace ∧ answered s.pool 0 = false ∧
        ⟨.call 0, some 2⟩ ∈ s.ws)) = true := by decide +kernel
  cases he : exec (adder.toFn id) (Act.calm id) (State.init (adder.graph id) 2) (twoThreads.take 6) with
  | none => rw [he] at h; cases h
  | some s =>
    rw [he] at h
    obtain ⟨h1, h2, h3, h4, h5⟩ := of_decide_eq_true h
    obtain ⟨as, hs⟩ := exec_from (by decide) (fun s a => Act.calm_ok _ id s a) he
    exact ⟨as, s, hs, h1, h2, h3, (fun hx => by rw [answered_iff.2 hx] at h4; cases h4), h5⟩

/-- The hypotheses of C86 with two threads that both run a filter, and one call of `getFrame`: three threads. -/
example : ∃ as s, Sched (adder.graph id) 2 (Limited 2) as s ∧ s.pool.dead = none ∧ s.alive = 3 ∧
    s.pool.running.length = 3 := by
  have h : (exec (adder.toFn id) (fun _ a => a.limited 2) (State.init (adder.graph id) 2) (twoThreads.take 6)).any (fun s => decide
      (s.pool.dead = none ∧ s.alive = 3 ∧ s.pool.running.length = 3)) = true := by decide +kernel
  cases he : exec (adder.toFn id) (fun _ a => a.limited 2) (State.init (adder.graph id) 2) (twoThreads.take 6) with
  | none => rw [he] at h; cases h
  | some s =>
    rw [he] at h
    obtain ⟨h1, h2, h3⟩ := of_decide_eq_true h
    obtain ⟨as, hs⟩ := exec_from (by decide) (fun s a => Act.limited_ok _ 2 s a) he
    exact ⟨as, s, hs, h1, h2, h3⟩

/-- Without calls of `getFrame`: two threads, two filters. -/
example : (exec (adder.toFn id) (fun _ a => a.direct && a.limited 2) (State.init (adder.graph id) 2)
    [.request (1, 0) true, .request (0, 4) true, .request (1, 1) true, .scan 0, .scan 1]).map
      (fun s => (s.alive, s.pool.running.length, s.pool.tasks)) = some (2, 2, [2]) := by decide +kernel

/-- C87: one callback runs, the other waits for it. -/
example : (exec (adder.toFn id) (fun _ _ => true) (State.init (adder.graph id) 2)
    [.request (0, 1) true, .request (0, 4) true, .scan 0, .ret 0, .complete 0, .scan 1, .ret 1, .complete 1, .enter 0]).map
      (fun s => (s.ws, s.callbacks, (s.step (adder.graph id) (.enter 1)).isSome)) =
    some ([⟨.user 0, none⟩, ⟨.out 1, none⟩], 1, false) := by decide +kernel

/-- C88: the pool is destroyed while one thread sleeps and one runs a filter. -/
example : (exec (adder.toFn id) (fun _ _ => true) (State.init (adder.graph id) 2)
    [.request (0, 1) true, .request (0, 4) true, .scan 0, .ret 0, .complete 0, .scan 1, .enter 0, .leave 0, .resume 0,
      .scan 0, .stop, .wake 0, .scan 0, .ret 1, .complete 1, .enter 1, .leave 1, .resume 1, .scan 1]).map
      (fun s => (s.ws, s.alive, s.active, s.idle)) =
    some ([⟨.gone, none⟩, ⟨.gone, none⟩], 0, 0, 0) := by decide +kernel

/-! ## Where threads get stuck -/

/-- Blocking calls only in filters and for lower nodes; nothing is asked of the memory limit. -/
def Ranked (rank : Nat → Nat) (s : State F L) : Action F L → Prop
  | .block i k _ _ => ∃ c, s.ws[i]? = some ⟨.call c, none⟩ ∧ rank k.1 < rank (s.pool.ctx c).key.1
  | _ => True

/-- Blocking calls for lower nodes, also in callbacks; memory is never short. -/
def Ample (rank : Nat → Nat) (s : State F L) : Action F L → Prop
  | .block i k _ _ => ∃ c p, s.ws[i]? = some ⟨p, none⟩ ∧ (p = .call c ∨ p = .user c) ∧
      rank k.1 < rank (s.pool.ctx c).key.1
  | .scan _ _ full _ _ _ => ∀ k, full k = false
  | _ => True

def Act.ranked (rank : Nat → Nat) (s : State F L) : Act → Bool
  | .block i k =>
    match s.ws[i]? with
    | some ⟨.call c, none⟩ => decide (rank k.1 < rank (s.pool.ctx c).key.1)
    | _ => false
  | _ => true

theorem Act.ranked_ok (p : Fn F L) (rank : Nat → Nat) (s : State F L) (a : Act) (h : a.ranked rank s = true) :
    Ranked rank s (a.action p s) := by
  cases a with
  | block i k =>
    unfold Act.ranked at h
    simp only at h
    split at h
    · next c hw => exact ⟨c, hw, of_decide_eq_true h⟩
    · cases h
  | ret i => rcases act_ret p s i with ⟨o, ho⟩ | ho <;> rw [ho] <;> trivial
  | _ => trivial

def Act.ample (rank : Nat → Nat) (s : State F L) : Act → Bool
  | .block i k =>
    match s.ws[i]? with
    | some ⟨.call c, none⟩ => decide (rank k.1 < rank (s.pool.ctx c).key.1)
    | some ⟨.user c, none⟩ => decide (rank k.1 < rank (s.pool.ctx c).key.1)
    | _ => false
  | .full _ => false
  | _ => true

theorem Act.ample_ok (p : Fn F L) (rank : Nat → Nat) (s : State F L) (a : Act) (h : a.ample rank s = true) :
    Ample rank s (a.action p s) := by
  cases a with
  | block i k =>
    unfold Act.ample at h
    simp only at h
    split at h
    · next c hw => exact ⟨c, _, hw, .inl rfl, of_decide_eq_true h⟩
    · next c hw => exact ⟨c, _, hw, .inr rfl, of_decide_eq_true h⟩
    · cases h
  | full i => cases h
  | scan i => exact fun _ => rfl
  | ret i => rcases act_ret p s i with ⟨o, ho⟩ | ho <;> rw [ho] <;> trivial
  | _ => trivial

/-- **C85**, as it would be without an assumption on the memory limit, fails: a filter that calls `getFrame`
counts as a call in progress, so that the frame it waits for may be refused for lack of memory by a thread
that then sleeps. -/
theorem C85_any_memory_limit_refuted : ¬ ∀ (g : Graph Nat (Pool.Kept Nat)) (rank : Nat → Nat) (n : Nat)
    (as : List (Action Nat (Pool.Kept Nat))) (s : State Nat (Pool.Kept Nat)) (c : Nat) (k : Key), g.Acyclic rank →
    Sched g n (Ranked rank) as s → s.pool.dead = none → s.stop = false → .request c k ∈ s.pool.trace →
    ¬ Told s.pool.trace c → Busy g s := by
  intro hall
  have h : (exec (adder.toFn id) (Act.ranked id) (State.init (adder.graph id) 4)
      [.request (1, 0) true, .scan 0, .block 0 (0, 2), .full 1]).any (fun s => decide
      (s.pool.dead = none ∧ s.stop = false ∧ .request 0 (1, 0) ∈ s.pool.trace ∧ answered s.pool 0 = false ∧
        s.ws.all s.halted = true)) = true := by decide +kernel
  cases he : exec (adder.toFn id) (Act.ranked id) (State.init (adder.graph id) 4)
      [.request (1, 0) true, .scan 0, .block 0 (0, 2), .full 1] with
  | none => rw [he] at h; cases h
  | some s =>
    rw [he] at h
    obtain ⟨h1, h2, h3, h4, h5⟩ := of_decide_eq_true h
    obtain ⟨as, hs⟩ := exec_from (by decide) (fun s a => Act.ranked_ok _ id s a) he
    exact not_busy h5 (hall _ id 4 as s 0 (1, 0) (Pool.Program.graph_acyclic adder_acyclic) hs h1 h2 h3
      (fun hx => by rw [answered_iff.2 hx] at h4; cases h4))

/-- **C85**, as it would be for callbacks of `getFrameAsync` that call `getFrame`, fails with one thread: the
callback holds the lock around callbacks, and the thread that should make the frame waits for that lock to
deliver another one. -/
theorem C85_blocking_callbacks_refuted : ¬ ∀ (g : Graph Nat (Pool.Kept Nat)) (rank : Nat → Nat) (n : Nat)
    (as : List (Action Nat (Pool.Kept Nat))) (s : State Nat (Pool.Kept Nat)) (c : Nat) (k : Key), g.Acyclic rank →
    Sched g n (Ample rank) as s → s.pool.dead = none → s.stop = false → .request c k ∈ s.pool.trace →
    ¬ Told s.pool.trace c → Busy g s := by
  intro hall
  have h : (exec (adder.toFn id) (Act.ample id) (State.init (adder.graph id) 1)
      [.request (1, 0) true, .scan 0, .ret 0, .complete 0, .scan 0, .ret 0, .complete 0, .scan 0, .ret 0, .complete 0,
        .scan 0, .ret 0, .complete 0, .enter 0, .request (0, 4) true, .block 0 (0, 2), .scan 1, .ret 1, .complete 1]).any (fun s => decide
      (s.pool.dead = none ∧ s.stop = false ∧ .request 3 (0, 4) ∈ s.pool.trace ∧ answered s.pool 3 = false ∧
        s.ws.all s.halted = true)) = true := by decide +kernel
  cases he : exec (adder.toFn id) (Act.ample id) (State.init (adder.graph id) 1)
      [.request (1, 0) true, .scan 0, .ret 0, .complete 0, .scan 0, .ret 0, .complete 0, .scan 0, .ret 0, .complete 0,
        .scan 0, .ret 0, .complete 0, .enter 0, .request (0, 4) true, .block 0 (0, 2), .scan 1, .ret 1, .complete 1] with
  | none => rw [he] at h; cases h
  | some s =>
    rw [he] at h
    obtain ⟨h1, h2, h3, h4, h5⟩ := of_decide_eq_true h
    obtain ⟨as, hs⟩ := exec_from (by decide) (fun s a => Act.ample_ok _ id s a) he
    exact not_busy h5 (hall _ id 1 as s 3 (0, 4) (Pool.Program.graph_acyclic adder_acyclic) hs h1 h2 h3
      (fun hx => by rw [answered_iff.2 hx] at h4; cases h4))

end VS.Work
