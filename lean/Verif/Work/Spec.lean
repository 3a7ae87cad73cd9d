import Verif.Work.Model

/-!
# What is said about the threads
-/

namespace VS.Work

open VS.Pool (Key Graph Event)

variable {F L : Type}

/-- Schedules all of whose steps are of the kind `P`. -/
inductive Sched (g : Graph F L) (n : Nat) (P : State F L → Action F L → Prop) :
    List (Action F L) → State F L → Prop where
  | nil : 0 < n → Sched g n P [] (State.init g n)
  | snoc {as : List (Action F L)} {s s' : State F L} {a : Action F L} :
      Sched g n P as s → a.legal g s → P s a → s.step g a = some s' → Sched g n P (as ++ [a]) s'

/-- The callback of a request was called. -/
def Told (t : List (Event F)) (c : Nat) : Prop := ∃ k r, .callback c k r ∈ t

/-- The steps a worker thread takes without outside help. -/
def Action.own : Action F L → Option Nat
  | .unblock i => some i
  | .scan i _ _ _ _ _ => some i
  | .complete i _ _ _ _ _ => some i
  | .enter i => some i
  | .leave i => some i
  | .resume i _ => some i
  | .wake i => some i
  | _ => none

/-- Some thread is at work: it is inside a filter and does not wait there, or it can take a step. -/
inductive Busy (g : Graph F L) (s : State F L) : Prop where
  | filter {i c : Nat} : s.ws[i]? = some ⟨.call c, none⟩ → Busy g s
  | step {i : Nat} {a : Action F L} {s' : State F L} : a.own = some i → a.legal g s → s.step g a = some s' → Busy g s

/-- What is asked of programs: only filters call `getFrame` from worker threads, for nodes of a lower rank;
and the memory limit makes a call wait only if some other call is in progress that does not wait in
`getFrame` itself. -/
def Calm (rank : Nat → Nat) (s : State F L) : Action F L → Prop
  | .block i k _ _ => ∃ c, s.ws[i]? = some ⟨.call c, none⟩ ∧ rank k.1 < rank (s.pool.ctx c).key.1
  | .scan _ _ full _ _ _ => (∃ k, full k = true) → s.pool.running ≠ [] →
      ∃ w ∈ s.ws, ∃ c, w.place = .call c ∧ ∀ e, w.wait = some e → Told s.pool.trace e
  | _ => True

/-- No worker thread calls `getFrame`. -/
def Direct (_ : State F L) : Action F L → Prop
  | .block _ _ _ _ => False
  | _ => True

/-- Never more than `m` threads are asked for. -/
def Limited (m : Nat) (_ : State F L) (a : Action F L) : Prop := ∀ k, a = .threads k → k ≤ m

/-- Calls of `getFrame` by worker threads. -/
def Action.isBlock : Action F L → Bool
  | .block _ _ _ _ => true
  | _ => false

/-- Threads that have not ended. -/
def State.alive (s : State F L) : Nat := s.ws.countP (fun w => w.place != .gone)

/-- Threads inside a filter. -/
def State.calls (s : State F L) : Nat :=
  s.ws.countP (fun w => match w.place with | .call _ => true | _ => false)

/-- Threads inside a callback of `getFrameAsync`. -/
def State.callbacks (s : State F L) : Nat :=
  s.ws.countP (fun w => match w.place with | .user c => decide (c ∈ s.async) | _ => false)

end VS.Work
