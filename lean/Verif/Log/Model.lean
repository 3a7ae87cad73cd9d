/-!
# Log messages

Model of `VSCore::addLogHandler`, `removeLogHandler`, `logMessage` (src/core/vscore.cpp:1438-1491),
the removal of all handlers in `freeCore` (2104-2105) and the handlers of version 3 programs
(src/core/vslog.cpp).

Simplifications:
* calls are atomic: the code holds `logMutex`, a recursive mutex;
* a handler may call `logMessage` while it handles a message (include/VapourSynth4.h:500 allows
  that and nothing else); what it logs is an input, a finite tree;
* handler objects have numbers instead of addresses; the set of handlers is ordered by address, so
  a new handler is put at an arbitrary position;
* a version 3 handler does not log (the mutex of src/core/vslog.cpp is not recursive);
* memory allocation does not fail; the process ends by `dead := true`;
* everything that can be observed is recorded in a trace.
-/

namespace VS.Log

/-- Type and text of a message. -/
structure Msg where
  type : Int
  text : String
  deriving DecidableEq, Repr

/-- `mtWarning`, include/VapourSynth4.h:303. -/
def mtWarning : Int := 2

/-- `mtFatal`, include/VapourSynth4.h:305. -/
def mtFatal : Int := 4

/-- `maxStoredLogMessages`, src/core/vscore.h:1161. -/
def maxStored : Nat := 500

/-- A call of `logMessage` together with the calls the handlers make while they handle the message:
the k-th list belongs to the k-th handler. -/
inductive Ev where
  | log (m : Msg) (reactions : List (List Ev))

/-- What can be observed. -/
inductive Event where
  /-- `logMessage` was called -/
  | logged (m : Msg)
  /-- the version 3 function `logMessage` was called -/
  | logged3 (m : Msg)
  /-- a handler was called -/
  | deliver (handler : Nat) (m : Msg)
  /-- a version 3 handler was called -/
  | deliver3 (handler : Nat) (m : Msg)
  /-- `addLogHandler` was called and gave this handle -/
  | installed (handler : Nat)
  /-- the handler was removed and its free function called -/
  | removed (handler : Nat)
  deriving DecidableEq, Repr

/-- `messageHandlers` and `storedMessages` of `VSCore` (src/core/vscore.h:1164-1165), the tables of
src/core/vslog.cpp:38-40, the next number of a handler, and what was observed. -/
structure State where
  handlers : List Nat
  stored : List Msg
  next : Nat
  handlers3 : List Nat
  next3 : Nat
  global3 : Option Nat
  trace : List Event
  dead : Bool

/-- A new core in a new process. -/
def State.init : State :=
  { handlers := [], stored := [], next := 0, handlers3 := [], next3 := 0, global3 := none
    trace := [], dead := false }

/-- Record an observation; nothing happens after the end of the process. -/
def State.emit (s : State) (e : Event) : State :=
  if s.dead then s else { s with trace := s.trace ++ [e] }

/-- The version 3 type of a message, src/core/vscore.cpp:1470-1484; `none`: not passed on. -/
def type3 (type : Int) : Option Int :=
  if type = 0 then some 0
  else if type = 1 ∨ type = 2 then some 1
  else if type = 3 then some 2
  else if type = 4 then some 3
  else none

/-- The loop of `vsLog3`, src/core/vslog.cpp:90-91. -/
def emitAll3 (s : State) (m : Msg) : List Nat → State
  | [] => s
  | h :: t => emitAll3 (s.emit (.deliver3 h m)) m t

/-- `vsLog3`, src/core/vslog.cpp:77-101. -/
def State.log3 (s : State) (m : Msg) : State := emitAll3 s m s.handlers3

/-- `logMessage` passes the message on, src/core/vscore.cpp:1470-1484. -/
def State.pass3 (s : State) (m : Msg) : State :=
  match type3 m.type with
  | some t => s.log3 { m with type := t }
  | none => s

/-- The message is kept if there is no handler, src/core/vscore.cpp:1467-1468. -/
def State.store (s : State) (m : Msg) : State :=
  if s.dead then s
  else if s.handlers = [] ∧ s.stored.length < maxStored then { s with stored := s.stored ++ [m] }
  else s

/-- The end of `logMessage`, src/core/vscore.cpp:1486-1490. -/
def State.terminate (s : State) (m : Msg) : State :=
  if m.type = mtFatal then { s with dead := true } else s

/-- The loop over handlers that do not log, src/core/vscore.cpp:1465-1466. -/
def emitAll (s : State) (m : Msg) : List Nat → State
  | [] => s
  | h :: t => emitAll (s.emit (.deliver h m)) m t

mutual

/-- `VSCore::logMessage`, src/core/vscore.cpp:1462-1491. -/
def State.logMsg (s : State) : Ev → State
  | .log m rs =>
    if s.dead then s
    else (((deliver (s.emit (.logged m)) m s.handlers rs).store m).pass3 m).terminate m

/-- The loop over the handlers, src/core/vscore.cpp:1465-1466. -/
def deliver (s : State) (m : Msg) (hs : List Nat) : List (List Ev) → State
  | [] => emitAll s m hs
  | r :: rs =>
    match hs with
    | [] => s
    | h :: t => deliver (logAll (s.emit (.deliver h m)) r) m t rs

/-- The calls of a handler, one after the other. -/
def logAll (s : State) : List Ev → State
  | [] => s
  | e :: t => logAll (s.logMsg e) t

end

/-- The message of src/core/vscore.cpp:1445. -/
def discardedMsg : Msg :=
  ⟨mtWarning, "Log messages after this point may have been discarded due to the buffer reaching its max size"⟩

/-- The loop over the kept messages, src/core/vscore.cpp:1442-1443.  It runs over the list as it is at
the start: what the handler logs does not change it, since there is a handler (field `stored` of
`Block` in `Verif.Log.Lemmas`). -/
def replay (s : State) (h : Nat) : List Msg → List (List Ev) → State
  | [], _ => s
  | m :: t, rs => replay (logAll (s.emit (.deliver h m)) rs.head?.toList.flatten) h t rs.tail

/-- Put a handler at some place. -/
def insertAt (pos h : Nat) (l : List Nat) : List Nat := l.take pos ++ h :: l.drop pos

/-- `VSCore::addLogHandler`, src/core/vscore.cpp:1438-1448; `rs` is what the handler logs while it
receives the kept messages, `rw` while it receives the warning. -/
def State.addHandler (s : State) (pos : Nat) (rs : List (List Ev)) (rw : List Ev) : State :=
  if s.dead then s
  else
    let h := s.next
    let s1 := { s with handlers := insertAt pos h s.handlers, next := s.next + 1,
                       trace := s.trace ++ [.installed h] }
    let s2 := replay s1 h s.stored rs
    let s3 := if s.stored.length = maxStored then logAll (s2.emit (.deliver h discardedMsg)) rw else s2
    if s3.dead then s3 else { s3 with stored := [] }

/-- `VSCore::removeLogHandler`, src/core/vscore.cpp:1450-1460. -/
def State.removeHandler (s : State) (h : Nat) : State :=
  if s.dead then s
  else if h ∈ s.handlers then
    { s with handlers := s.handlers.erase h, trace := s.trace ++ [.removed h] }
  else s

/-- The loop of `freeCore`, src/core/vscore.cpp:2104-2105. -/
def removeAll : Nat → State → State
  | 0, s => s
  | n + 1, s =>
    match s.handlers with
    | [] => s
    | h :: _ => removeAll n (s.removeHandler h)

/-- The loop of `freeCore` until there is no handler left, src/core/vscore.cpp:2104-2105. -/
def State.close (s : State) : State := removeAll s.handlers.length s

/-- `vsAddMessageHandler3`, src/core/vslog.cpp:65-70. -/
def State.add3 (s : State) : State :=
  if s.dead then s else { s with handlers3 := s.handlers3 ++ [s.next3], next3 := s.next3 + 1 }

/-- `vsRemoveMessageHandler3`, src/core/vslog.cpp:43-51, 72-75. -/
def State.remove3 (s : State) (h : Nat) : State :=
  if s.dead then s else { s with handlers3 := s.handlers3.erase h }

/-- `vsSetMessageHandler3`, src/core/vslog.cpp:53-63; `install` is whether a handler is given. -/
def State.set3 (s : State) (install : Bool) : State :=
  if s.dead then s
  else
    let s1 := match s.global3 with
      | some g => { s with handlers3 := s.handlers3.erase g, global3 := none }
      | none => s
    if install then
      { s1 with handlers3 := s1.handlers3 ++ [s1.next3], global3 := some s1.next3
                next3 := s1.next3 + 1 }
    else s1

/-- `logMessage3`, src/core/vsapi.cpp:944-946. -/
def State.logMsg3 (s : State) (m : Msg) : State := (s.emit (.logged3 m)).log3 m

/-- What a program can do. -/
inductive Call where
  | log (e : Ev)
  | log3 (m : Msg)
  | add (pos : Nat) (rs : List (List Ev)) (rw : List Ev)
  | remove (h : Nat)
  | close
  | add3
  | remove3 (h : Nat)
  | set3 (install : Bool)

/-- One call. -/
def State.step (s : State) : Call → State
  | .log e => s.logMsg e
  | .log3 m => s.logMsg3 m
  | .add pos rs rw => s.addHandler pos rs rw
  | .remove h => s.removeHandler h
  | .close => s.close
  | .add3 => s.add3
  | .remove3 h => s.remove3 h
  | .set3 i => s.set3 i

/-- A history. -/
def State.run (s : State) : List Call → State
  | [] => s
  | x :: t => (s.step x).run t

end VS.Log
