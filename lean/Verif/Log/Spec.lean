import Verif.Log.Model

/-!
# What is observed of a log

Everything is said about traces.
-/

namespace VS.Log.Spec
open VS.Log

/-- The messages logged. -/
def logged (t : List Event) : List Msg :=
  t.filterMap fun e => match e with
    | .logged m => some m
    | _ => none

/-- How version 3 calls a message: it does not know plain information. -/
def to3 (m : Msg) : Option Msg :=
  match m.type with
  | 0 => some ⟨0, m.text⟩
  | 1 => some ⟨1, m.text⟩
  | 2 => some ⟨1, m.text⟩
  | 3 => some ⟨2, m.text⟩
  | 4 => some ⟨3, m.text⟩
  | _ => none

/-- The messages logged as version 3 programs see them. -/
def logged3 (t : List Event) : List Msg :=
  t.filterMap fun e => match e with
    | .logged m => to3 m
    | .logged3 m => some m
    | _ => none

/-- The messages a handler received, in order. -/
def received (u : Nat) (t : List Event) : List Msg :=
  t.filterMap fun e => match e with
    | .deliver h m => if h = u then some m else none
    | _ => none

/-- The messages a version 3 handler received, in order. -/
def received3 (u : Nat) (t : List Event) : List Msg :=
  t.filterMap fun e => match e with
    | .deliver3 h m => if h = u then some m else none
    | _ => none

/-- The handler is installed at the end of the trace. -/
def Installed (t : List Event) (u : Nat) : Prop := .installed u ∈ t ∧ .removed u ∉ t

/-- No handler comes or goes. -/
def Quiet (t : List Event) : Prop := ∀ h, .installed h ∉ t ∧ .removed h ∉ t

/-- `since t b`: no handler is installed at the end of `t`, and `b` is what happened since the last
one was removed (or since the beginning). -/
def Since (t b : List Event) : Prop :=
  ∃ a, t = a ++ b ∧ Quiet b ∧ (∀ u, ¬ Installed a u) ∧ (a = [] ∨ ∃ a' u, a = a' ++ [.removed u])

/-- The old messages a handler receives that is installed after `t`: none if there is another
handler; else the first 500 messages since there was none, and a warning if some may be
missing. -/
structure Backlog (t : List Event) (old : List Msg) : Prop where
  none : (∃ v, Installed t v) → old = []
  some : ∀ b, Since t b → old = (logged b).take 500 ++
    if 500 ≤ (logged b).length then [discardedMsg] else []

/-- A history in which handlers do not log themselves. -/
def Flat : Call → Prop
  | .log (.log _ rs) => rs = []
  | .add _ rs rw => rs = [] ∧ rw = []
  | _ => True

/-- Traces of running processes. -/
def Trace (t : List Event) : Prop :=
  ∃ calls, (State.init.run calls).dead = false ∧ (State.init.run calls).trace = t

end VS.Log.Spec
