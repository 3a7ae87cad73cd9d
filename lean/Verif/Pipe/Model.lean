/-!
# How vspipe requests and writes frames

`outputNode` (src/vspipe/vspipe.cpp:565-596) and `frameDoneCallback` (296-437).

Callbacks run one at a time (`callbackLock`, src/core/vsthreadpool.cpp:461-493), in any order, each with a frame or an
error.  The main thread runs at the same time as the callbacks and reads the counters without a lock that the callback
would hold, so a callback is two steps here: counting (319-326) and the rest.

Simplified: contents of frames are not looked at, a plane is one write, audio has one write for each frame.  Printing of
progress and of error messages is left out.
-/

namespace VS.Pipe

/-- One write to a file. -/
inductive Item where
  /-- `FRAME` of y4m -/
  | header (n : Nat)
  | plane (n p : Nat)
  | alphaPlane (n p : Nat)
  | timecode (n : Nat)
  /-- the properties of a frame, with a comma after them or not -/
  | json (n : Nat) (comma : Bool)
  deriving DecidableEq

inductive Outcome where
  | ok
  | fail
  /-- the timecode was written but the frame has no valid duration (358-379) -/
  | okError
  deriving DecidableEq

/-- What does not change while frames are written. -/
structure Cfg where
  /-- `totalFrames` at the beginning: the number of frames of the clip -/
  total : Nat
  /-- number of simultaneous requests, at least one -/
  requests : Nat
  alpha : Bool
  /-- the alpha node is the node itself -/
  same : Bool
  outFile : Bool
  y4m : Bool
  planes : Nat
  alphaPlanes : Nat
  timecodes : Bool
  jsonFile : Bool
  /-- how each write ends -/
  write : Item → Outcome

inductive Phase where
  /-- the main thread has sent the requests for frames below `k`, and if `half` the one for frame `k` of the node -/
  | issue (k : Nat) (half : Bool)
  | waiting
  | finished
  deriving DecidableEq

/-- A frame of the node (`false`) or of the alpha node (`true`). -/
abbrev Key := Nat × Bool

structure State where
  requested : Nat
  total : Nat
  completed : Nat
  completedAlpha : Nat
  out : Nat
  /-- `reorderMap`: which frames are there; a missing entry is the same as one without frames -/
  got : Nat → Bool × Bool
  err : Bool
  main : Phase
  /-- requests that were not answered yet -/
  sent : List Key
  /-- the callback in progress and whether it got a frame -/
  active : Option (Key × Bool)
  /-- all requests so far -/
  requests : List Key
  /-- all callbacks so far -/
  calls : List Key
  /-- all frames received so far -/
  arrived : List Key
  /-- all calls of `freeFrame` so far -/
  freed : List Key
  written : List Item

/-- `std::min(requests, totalFrames)`, 577. -/
def Cfg.initial (c : Cfg) : Nat := min c.requests c.total

def State.init (c : Cfg) : State :=
  { requested := c.initial, total := c.total, completed := 0, completedAlpha := 0, out := 0
    got := fun _ => (false, false), err := false, main := .issue 0 false, sent := [], active := none
    requests := [], calls := [], arrived := [], freed := [], written := [] }

/-- `getFrameAsync` -/
def State.send (s : State) (k : Key) : State := { s with sent := s.sent ++ [k], requests := s.requests ++ [k] }

/-- The loop in `outputNode`, 579-583; one call each. -/
def State.issue (c : Cfg) (s : State) (k : Nat) (half : Bool) : State :=
  if k < c.initial then
    if half then { s.send (k, true) with main := .issue (k + 1) false }
    else if c.alpha then { s.send (k, false) with main := .issue k true }
    else { s.send (k, false) with main := .issue (k + 1) false }
  else { s with main := .waiting }

/-- The condition the main thread waits for, 585. -/
def State.ready (s : State) : Bool := s.total == s.completed && s.total == s.completedAlpha

/-- The frames left in `reorderMap`, in the order of the map. -/
def leftover (got : Nat → Bool × Bool) (n : Nat) : List Key :=
  (List.range n).flatMap (fun i => (if (got i).1 then [(i, false)] else []) ++ (if (got i).2 then [(i, true)] else []))

/-- After the wait, 587-593. -/
def State.finish (s : State) : State :=
  if s.err then { s with main := .finished, freed := s.freed ++ leftover s.got s.requested }
  else { s with main := .finished }

/-- Does the callback take the frame for one of the node?  It compares node pointers. -/
def Cfg.isMain (c : Cfg) (k : Key) : Bool := !k.2 || c.same

/-- The beginning of a callback, 319-326. -/
def State.begin (c : Cfg) (s : State) (k : Key) (ok : Bool) : State :=
  let s1 := if c.isMain k then
      { s with completed := s.completed + 1
               completedAlpha := if c.alpha then s.completedAlpha else s.completedAlpha + 1 }
    else { s with completedAlpha := s.completedAlpha + 1 }
  { s1 with sent := s.sent.erase k, active := some (k, ok), calls := s.calls ++ [k] }

/-- `isCompletedFrame`, 229-231. -/
def isCompleted (alpha : Bool) (g : Bool × Bool) : Bool := g.1 && (!alpha || g.2)

def setGot (got : Nat → Bool × Bool) (n : Nat) (g : Bool × Bool) : Nat → Bool × Bool :=
  fun i => if i = n then g else got i

/-- The writes for one frame in order, 349-390 and `outputFrame` 233-286. -/
def Cfg.items (c : Cfg) (total n : Nat) : List Item :=
  (if c.outFile then
    (if c.y4m then [Item.header n] else []) ++ (List.range c.planes).map (Item.plane n) ++
      (if c.alpha then (List.range c.alphaPlanes).map (Item.alphaPlane n) else [])
    else []) ++
  (if c.timecodes then [Item.timecode n] else []) ++
  (if c.jsonFile then [Item.json n (total - 1 != n)] else [])

/-- Writes until one fails: after an error nothing else is written. -/
def writeAll (w : Item → Outcome) : List Item → List Item × Bool
  | [] => ([], false)
  | i :: t =>
    match w i with
    | .ok => (i :: (writeAll w t).1, (writeAll w t).2)
    | .fail => ([], true)
    | .okError => ([i], true)

/-- Writes one frame and counts it, 345-395. -/
def State.output (c : Cfg) (s : State) : State :=
  let s1 := if s.err then s
    else
      let r := writeAll c.write (c.items s.total s.out)
      if r.2 then { s with written := s.written ++ r.1, err := true, total := s.requested }
      else { s with written := s.written ++ r.1 }
  { s1 with
    got := setGot s1.got s.out (false, false)
    freed := s1.freed ++ ([(s.out, false)] ++ (if (s.got s.out).2 then [(s.out, true)] else []))
    out := s.out + 1 }

/-- The loop, 343-396; it ends because no frame at or after `requested` is there, so `fuel` never runs out, see
`drain_stops`. -/
def State.drain (c : Cfg) (s : State) : Nat → State
  | 0 => s
  | fuel + 1 => if isCompleted c.alpha (s.got s.out) then State.drain c (s.output c) fuel else s

/-- One more request for each frame that is complete, 335-340. -/
def State.more (c : Cfg) (s : State) (n : Nat) : State :=
  if isCompleted c.alpha (s.got n) && decide (s.requested < s.total) then
    let s1 := s.send (s.requested, false)
    let s2 := if c.alpha then s1.send (s.requested, true) else s1
    { s2 with requested := s.requested + 1 }
  else s

/-- The rest of a callback, 328-406. -/
def State.rest (c : Cfg) (s : State) (k : Key) (ok : Bool) : State :=
  let s0 := { s with active := none }
  if ok then
    let g := s.got k.1
    let s1 := { s0 with arrived := s.arrived ++ [k]
                        got := setGot s.got k.1 (if c.isMain k then (true, g.2) else (g.1, true)) }
    let s2 := s1.more c k.1
    s2.drain c (s2.requested - s2.out)
  else { s0 with err := true, total := s.requested }

inductive Action where
  /-- the main thread goes on with the requests -/
  | issue
  /-- the answer to a request arrives -/
  | begin (k : Key) (ok : Bool)
  /-- the callback goes on -/
  | rest
  /-- the main thread looks at the counters while no callback is in progress -/
  | check
  /-- the main thread looks at the counters while a callback is in progress -/
  | checkDuring
  deriving DecidableEq

def State.step (c : Cfg) (s : State) : Action → Option State
  | .issue =>
    match s.main with
    | .issue k half => some (s.issue c k half)
    | _ => none
  | .begin k ok => if s.active = none ∧ k ∈ s.sent then some (s.begin c k ok) else none
  | .rest =>
    match s.active with
    | some (k, ok) => some (s.rest c k ok)
    | none => none
  | .check => if s.main = .waiting ∧ s.active = none ∧ s.ready = true then some s.finish else none
  | .checkDuring => if s.main = .waiting ∧ s.active ≠ none ∧ s.ready = true then some s.finish else none

inductive Run (c : Cfg) : List Action → State → Prop where
  | nil : Run c [] (State.init c)
  | snoc {as : List Action} {s s' : State} {a : Action} : Run c as s → s.step c a = some s' → Run c (as ++ [a]) s'

end VS.Pipe
