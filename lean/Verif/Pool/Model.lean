/-!
# The frame scheduler

Model of src/core/vsthreadpool.cpp, of `VSFrameContext` (src/core/vscore.h:588-636), of the functions of
src/core/vsapi.cpp through which frames are requested, and of `VSNode::getFrameInternal`
(src/core/vscore.cpp:1056-1119).

A frame computation (a `VSFrameContext`) has a number.  The code that runs with `taskLock` held is one
step; so is the end of a filter call, which happens without the lock.  Which worker does what and when is
not fixed: any order of steps is a schedule.

Simplifications:
* frames are values of an arbitrary type `F`; whether a frame has the declared format is not looked at
  (see `Verif.Audio` for the length check);
* what a filter does in a call is an arbitrary relation, given with the graph; `L` is the data a filter
  keeps for a frame computation (`frameContext`);
* what the caches hold is any part of what the filters have produced so far (see `Verif.Cache`);
* the prediction of memory use is an arbitrary input of a step;
* computations are not deleted (reference counts of contexts are not modelled);
* threads are not counted: a worker that looks for work is a step that can always be taken; sleeping and
  waking are not part of this model;
* `logFatal` sets `dead`.
-/

namespace VS.Pool

/-- `NodeOutputKey`, src/core/vscore.h:91: node and frame number. -/
abbrev Key := Nat × Int

/-- `VSActivationReason`, include/VapourSynth4.h. -/
inductive Reason where
  | initial
  | ready
  | error
  deriving DecidableEq, Repr

/-- `VSFilterMode`, include/VapourSynth4.h:174-179. -/
inductive Mode where
  | parallel
  | parallelRequests
  | unordered
  | frameState
  deriving DecidableEq, Repr

/-- What a filter does in one call. -/
structure Outcome (F L : Type) where
  /-- the calls of `requestFrameFilter`, src/core/vsapi.cpp:148-154 -/
  reqs : List Key
  /-- the calls of `releaseFrameEarly`, src/core/vsapi.cpp:809-819 -/
  release : List Key
  /-- the calls of `cacheFrame`, src/core/vsapi.cpp:822-825 -/
  caches : List (Int × F)
  /-- the first call of `setFilterError` -/
  err : Option String
  /-- the frame returned, if any -/
  frame : Option F
  /-- the data kept for the next call -/
  loc : L

/-- The filters of a program. -/
structure Graph (F L : Type) where
  /-- number of frames of a node -/
  numFrames : Nat → Int
  mode : Nat → Mode
  /-- the data before the first call -/
  init : L
  /-- what a filter may do: key, reason, kept data, available frames -/
  filter : Key → Reason → L → List (Key × F) → Outcome F L → Prop

/-- `VSFrameContext`, src/core/vscore.h:588-636; the error flag and message are one field, released frames
are removed from `avail`. -/
structure Ctx (F L : Type) where
  key : Key
  order : Nat
  pending : Nat
  error : Option String
  first : Bool
  external : Bool
  notify : List Nat
  reqs : List Key
  avail : List (Key × F)
  loc : L

/-- A filter call in progress: whether `serialMutex` is held for it, and the reason given. -/
structure Job where
  c : Nat
  serial : Bool
  reason : Reason
  deriving DecidableEq, Repr

/-- What can be observed. -/
inductive Event (F : Type) where
  /-- `getFrameAsync` was called -/
  | request (c : Nat) (k : Key)
  /-- a filter was called -/
  | call (c : Nat) (k : Key) (r : Reason) (avail : List (Key × F))
  /-- a filter returned: the requests it made, the error it reported, the frame it returned -/
  | ret (c : Nat) (k : Key) (reqs : List Key) (err : Option String) (frame : Option F)
  /-- the request of `c` for frame `k` is served by computation `d` -/
  | attach (c : Nat) (k : Key) (d : Nat)
  /-- a computation ended -/
  | finish (c : Nat) (k : Key) (r : Except String F)
  /-- the callback of a request was called -/
  | callback (c : Nat) (k : Key) (r : Except String F)

/-- The state of the scheduler. -/
structure State (F L : Type) where
  ctx : Nat → Ctx F L
  next : Nat
  /-- `tasks` and `altTasks` -/
  tasks : List Nat
  alt : List Nat
  /-- `allContexts` -/
  all : List (Key × Nat)
  /-- filter calls in progress -/
  running : List Job
  /-- filter calls that have returned and wait for `taskLock` -/
  finished : List (Nat × Option F)
  /-- finished external requests before the callback -/
  returning : List (Nat × Except String F)
  /-- `serialMutex`, `serialFrame` and `serialOwner` of a node -/
  mutex : Nat → Bool
  serialFrame : Nat → Int
  owner : Nat → Option Nat
  /-- all frames produced so far, that is everything a cache may hold -/
  produced : List (Key × F)
  /-- `flushCaches` -/
  flush : Bool
  /-- `reqCounter` -/
  counter : Nat
  trace : List (Event F)
  dead : Option String

/-- A computation no one has created. -/
def Ctx.blank (l : L) : Ctx F L :=
  { key := (0, 0), order := 0, pending := 0, error := none, first := false, external := false
    notify := [], reqs := [], avail := [], loc := l }

/-- A new core. -/
def State.init (g : Graph F L) : State F L :=
  { ctx := fun _ => Ctx.blank g.init, next := 0, tasks := [], alt := [], all := [], running := []
    finished := [], returning := [], mutex := fun _ => false, serialFrame := fun _ => -1
    owner := fun _ => none, produced := [], flush := false, counter := 0, trace := [], dead := none }

/-- Change one value of a function. -/
def upd {α : Type} (f : Nat → α) (i : Nat) (x : α) : Nat → α := fun j => if j = i then x else f j

def State.setCtx (s : State F L) (c : Nat) (x : Ctx F L) : State F L := { s with ctx := upd s.ctx c x }

def State.emit (s : State F L) (e : Event F) : State F L := { s with trace := s.trace ++ [e] }

/-- The frame number of a request is limited to the last frame, src/core/vsapi.cpp:150-152. -/
def Graph.clamp (g : Graph F L) (k : Key) : Key :=
  if k.2 ≥ g.numFrames k.1 then (k.1, g.numFrames k.1 - 1) else k

/-- `getFrameFilter`, src/core/vsapi.cpp:156-171. -/
def Graph.getFrame (g : Graph F L) (avail : List (Key × F)) (k : Key) : Option F :=
  let k' := if g.numFrames k.1 ≠ 0 ∧ k.2 ≥ g.numFrames k.1 then (k.1, g.numFrames k.1 - 1) else k
  avail.lookup k'

/-- `taskCmp`, src/core/vsthreadpool.cpp:76-78. -/
def State.cmp (s : State F L) (a b : Nat) : Bool :=
  (s.ctx a).order < (s.ctx b).order ||
    ((s.ctx a).order == (s.ctx b).order && (s.ctx a).key.2 < (s.ctx b).key.2)

/-- Put an element in front of the first one that is not smaller. -/
def insertBy (lt : Nat → Nat → Bool) (a : Nat) : List Nat → List Nat
  | [] => [a]
  | b :: t => if lt b a then b :: insertBy lt a t else a :: b :: t

/-- A stable sort; all stable sorts have the same result, so the algorithm of `std::list::sort` does not
matter. -/
def sortBy (lt : Nat → Nat → Bool) (l : List Nat) : List Nat := l.foldr (insertBy lt) []

/-- `tasks.sort(taskCmp)`, src/core/vsthreadpool.cpp:150, 343. -/
def State.sort (s : State F L) : State F L := { s with tasks := sortBy s.cmp s.tasks }

/-- `queueTask`, src/core/vsthreadpool.cpp:420-424. -/
def State.queue (s : State F L) (c : Nat) : State F L := { s with tasks := c :: s.tasks }

/-! ## New requests -/

/-- The message of `getFrameAsync`, src/core/vsapi.cpp:97. -/
def invalidMsg (n numFrames : Int) : String :=
  "Invalid frame number " ++ toString n ++ " requested, clip only has " ++ toString numFrames ++
    " frames"

/-- The error set by `getFrameAsync`, src/core/vsapi.cpp:96-97. -/
def Graph.requestError (g : Graph F L) (k : Key) : Option String :=
  if k.2 < 0 ∨ k.2 ≥ g.numFrames k.1 then some (invalidMsg k.2 (g.numFrames k.1)) else none

/-- The context of an external request, src/core/vscore.cpp:74-76 and `startExternal`. -/
def Ctx.ext (g : Graph F L) (k : Key) (order : Nat) : Ctx F L :=
  { key := k, order := order, pending := 0, error := g.requestError k, first := true, external := true
    notify := [], reqs := [], avail := [], loc := g.init }

/-- `getFrameAsync`, src/core/vsapi.cpp:91-100, and `startExternal`, src/core/vsthreadpool.cpp:440-459;
`reserve` is `reserveThread`. -/
def State.request (g : Graph F L) (s : State F L) (k : Key) (reserve : Bool) : State F L :=
  let c := s.next
  let s1 := { s.setCtx c (Ctx.ext g k (s.counter + 1)) with next := s.next + 1, counter := s.counter + 1 }
  let s2 := if s.flush && !reserve then { s1 with alt := s1.alt ++ [c] }
    else { s1 with tasks := s1.tasks ++ [c] }
  s2.emit (.request c k)

/-! ## Looking for work -/

/-- Does a call need the mutex of the node, src/core/vsthreadpool.cpp:190. -/
def useSerial (m : Mode) (first : Bool) : Bool :=
  m == .frameState || m == .unordered || (m == .parallelRequests && !first)

/-- What a worker finds. -/
inductive Pick (F : Type) where
  | none
  /-- a cached frame answers this computation -/
  | hit (c : Nat) (f : F)
  /-- the filter of this computation is called; with the mutex or without -/
  | call (c : Nat) (serial : Bool)

/-- `maxSeenNodes`, src/core/vsthreadpool.cpp:112. -/
def maxSeen : Nat := 64

/-- Is the computation `c` kept from running by the mutex or by the frame the node is working on,
src/core/vsthreadpool.cpp:192-204. -/
def State.blocked (g : Graph F L) (s : State F L) (c : Nat) : Bool :=
  let n := (s.ctx c).key.1
  s.mutex n || (g.mode n == .frameState && s.serialFrame n != -1 && s.owner n != some c)

/-- The loop over the tasks, src/core/vsthreadpool.cpp:116-205; `hit` is what the caches answer, `full` which
calls do not fit into memory, `busy` whether a filter is running. -/
def State.pick (g : Graph F L) (s : State F L) (hit : Key → Option F) (full : Key → Bool) :
    List Nat → List Nat → Pick F
  | [], _ => .none
  | c :: t, seen =>
    let x := s.ctx c
    let n := x.key.1
    match (if x.first then hit x.key else none) with
    | some f => .hit c f
    | none =>
      if g.mode n ≠ .frameState ∧ n ∈ seen then s.pick g hit full t seen
      else
        let seen' := if g.mode n ≠ .frameState ∧ seen.length < maxSeen then seen ++ [n] else seen
        if full x.key && !s.running.isEmpty then s.pick g hit full t seen'
        else if useSerial (g.mode n) x.first then
          if s.blocked g c then s.pick g hit full t seen' else .call c true
        else .call c false

/-! ## Telling those who wait -/

/-- One waiting computation gets an answer, src/core/vsthreadpool.cpp:130-137, 309-317 and 323-331. -/
def State.notifyOne (s : State F L) (f : Ctx F L → Ctx F L) (c : Nat) : State F L :=
  let x := f (s.ctx c)
  let s1 := s.setCtx c { x with pending := x.pending - 1 }
  if x.pending - 1 = 0 then s1.queue c else s1

def State.notifyAll (s : State F L) (f : Ctx F L → Ctx F L) : List Nat → State F L
  | [] => s
  | c :: t => (s.notifyOne f c).notifyAll f t

/-- `setError`, src/core/vscore.cpp:78-84. -/
def Ctx.setError (x : Ctx F L) (m : String) : Ctx F L :=
  { x with error := some (x.error.getD m) }

/-- A frame becomes available. -/
def Ctx.addFrame (k : Key) (f : F) (x : Ctx F L) : Ctx F L := { x with avail := x.avail ++ [(k, f)] }

/-- The answer of a computation. -/
def Ctx.answer (x : Ctx F L) (k : Key) : Except String F → Ctx F L
  | .ok f => x.addFrame k f
  | .error m => x.setError m

/-- A computation leaves `allContexts`, or its callback is due. -/
def State.leave (s : State F L) (c : Nat) (r : Except String F) : State F L :=
  if (s.ctx c).external then { s with returning := (c, r) :: s.returning }
  else { s with all := s.all.filter (fun e => e.1 ≠ (s.ctx c).key) }

/-- The end of a computation: it leaves `allContexts`, those who wait are told, the caller of an external
request gets its callback later (src/core/vsthreadpool.cpp:127-152 and 301-336).  For a cached frame the
code leaves `allContexts` after the loop; nothing in between looks at it.  `needsSort` is true if some
computation was queued. -/
def State.endCtx (s : State F L) (c : Nat) (r : Except String F) : State F L :=
  let x := s.ctx c
  let s1 := s.leave c r
  let s2 := (s1.notifyAll (fun y => y.answer x.key r) x.notify).emit (.finish c x.key r)
  if s2.tasks.length = s1.tasks.length then s2 else s2.sort

/-- A cached frame answers a computation, src/core/vsthreadpool.cpp:123-155; an external request with an
error keeps its error (`returnFrame`, 473). -/
def State.hit (s : State F L) (c : Nat) (f : F) : State F L :=
  { s with tasks := s.tasks.erase c }.endCtx c
    (match (s.ctx c).error with
    | some m => .error m
    | none => .ok f)

/-! ## Calling a filter -/

/-- The reason of a call, src/core/vsthreadpool.cpp:216-224. -/
def Ctx.reason (x : Ctx F L) : Reason :=
  if x.error.isSome then .error else if !x.first then .ready else .initial

/-- A call begins, src/core/vsthreadpool.cpp:190-229. -/
def State.call (g : Graph F L) (s : State F L) (c : Nat) (serial : Bool) : State F L :=
  let x := s.ctx c
  let n := x.key.1
  let s1 := { s with tasks := s.tasks.erase c, running := ⟨c, serial, x.reason⟩ :: s.running }
  let s2 := if serial then { s1 with mutex := upd s1.mutex n true } else s1
  let s3 := if serial && g.mode n == .frameState && s2.serialFrame n == -1 then
      { s2 with serialFrame := upd s2.serialFrame n x.key.2, owner := upd s2.owner n (some c) }
    else s2
  let s4 := if x.reason = .initial then s3.setCtx c { x with first := false } else s3
  s4.emit (.call c x.key x.reason x.avail)

/-- What a call leaves in the computation: the first error stays, `setError`, src/core/vscore.cpp:78-84. -/
def Ctx.after (g : Graph F L) (x : Ctx F L) (o : Outcome F L) : Ctx F L :=
  { x with
    error := x.error.or o.err
    reqs := x.reqs ++ o.reqs.map g.clamp
    avail := x.avail.filter (fun a => a.1 ∉ o.release)
    loc := o.loc }

/-- A filter returns, src/core/vsthreadpool.cpp:233-252; the frames it made may be in the cache now
(src/core/vscore.cpp:1103-1110). -/
def State.ret (g : Graph F L) (s : State F L) (c : Nat) (serial : Bool) (o : Outcome F L) : State F L :=
  let x := s.ctx c
  let n := x.key.1
  let e := (x.after g o).error
  let s1 := s.setCtx c (x.after g o)
  let s2 := { s1 with
    produced := s1.produced ++ o.caches.map (fun (a : Int × F) => ((n, a.1), a.2)) ++
      (o.frame.map (fun f => (x.key, f))).toList
    running := s1.running.eraseP (fun p => p.c == c)
    finished := (c, o.frame) :: s1.finished }
  let done := o.frame.isSome || e.isSome
  let s3 := if serial && done && g.mode n == .frameState then
      { s2 with serialFrame := upd s2.serialFrame n (-1), owner := upd s2.owner n none }
    else s2
  let s4 := if serial then { s3 with mutex := upd s3.mutex n false } else s3
  let s5 := if e.isSome && o.frame.isSome then
      { s4 with dead := some "A frame was returned but an error was also set, this is not allowed" }
    else s4
  s5.emit (.ret c x.key o.reqs o.err o.frame)

/-! ## After a call -/

/-- The context of an internal request, src/core/vscore.cpp:69-72. -/
def Ctx.int (g : Graph F L) (k : Key) (c : Nat) (order : Nat) : Ctx F L :=
  { key := k, order := order, pending := 0, error := none, first := true, external := false
    notify := [c], reqs := [], avail := [], loc := g.init }

/-- `startInternalRequest`, src/core/vsthreadpool.cpp:495-513, without the check for negative numbers. -/
def State.attach (g : Graph F L) (s : State F L) (c : Nat) (k : Key) : State F L :=
  match s.all.lookup k with
  | some d =>
    let y := s.ctx d
    (s.setCtx d { y with notify := y.notify ++ [c], order := min y.order (s.ctx c).order }).emit (.attach c k d)
  | none =>
    let d := s.next
    let s1 := { s.setCtx d (Ctx.int g k c (s.ctx c).order) with next := s.next + 1, all := (k, d) :: s.all }
    (s1.queue d).emit (.attach c k d)

def State.attachAll (g : Graph F L) (s : State F L) (c : Nat) : List Key → State F L
  | [] => s
  | k :: t => (s.attach g c k).attachAll g c t

/-- The computation waits for everything it asked for, src/core/vsthreadpool.cpp:281-289. -/
def Ctx.wait (x : Ctx F L) : Ctx F L := { x with pending := x.reqs.length, reqs := [] }

/-- A worker has `taskLock` again after a call, src/core/vsthreadpool.cpp:279-341.  The check for negative
frame numbers is made for all requests at once, and `numFrameRequests` is set before the loop that
creates the requests instead of after it; nothing in the loop reads it. -/
def State.complete (g : Graph F L) (s : State F L) (c : Nat) (f : Option F) : State F L :=
  let x := s.ctx c
  let s1 := { s with finished := s.finished.eraseP (fun p => p.1 == c) }
  match x.error, f with
  | some m, _ => s1.endCtx c (.error m)
  | none, some f => s1.endCtx c (.ok f)
  | none, none =>
    if x.reqs = [] then { s1 with dead := some "No frame returned at the end of processing" }
    else if x.reqs.any (fun k => k.2 < 0) then { s1 with dead := some "Negative frame request" }
    else ((s1.setCtx c x.wait).attachAll g c x.reqs).sort

/-- The callback of an external request, `returnFrame`, src/core/vsthreadpool.cpp:461-493. -/
def State.callback (s : State F L) (c : Nat) (r : Except String F) : State F L :=
  { s with returning := s.returning.eraseP (fun p => p.1 == c) }.emit (.callback c (s.ctx c).key r)

/-- All workers are idle and the caches are to be flushed, src/core/vsthreadpool.cpp:353-363. -/
def State.swap (s : State F L) : State F L :=
  { s with tasks := s.alt, alt := s.tasks, flush := false }

/-! ## Schedules -/

/-- The steps. -/
inductive Action (F L : Type) where
  /-- a program calls `getFrameAsync` -/
  | request (k : Key) (reserve : Bool)
  /-- memory is over the limit for too long -/
  | setFlush
  /-- a worker looks for work -/
  | start (hit : Key → Option F) (full : Key → Bool)
  /-- the filter call of a computation returns -/
  | ret (c : Nat) (o : Outcome F L)
  /-- the worker that called the filter goes on -/
  | complete (c : Nat)
  /-- the callback of a request is called -/
  | callback (c : Nat)

/-- One step; `none` if it cannot be taken.  A worker that finds nothing while no one else has anything to
do ends a flush. -/
def State.step (g : Graph F L) (s : State F L) (a : Action F L) : Option (State F L) :=
  if s.dead.isSome then none
  else match a with
    | .request k reserve => some (s.request g k reserve)
    | .setFlush => some { s with flush := true }
    | .start hit full =>
      match s.pick g hit full s.tasks [] with
      | .hit c f => some (s.hit c f)
      | .call c serial => some (s.call g c serial)
      | .none =>
        if s.flush && s.running.isEmpty && s.finished.isEmpty && s.returning.isEmpty then some s.swap
        else none
    | .ret c o =>
      match s.running.find? (fun p => p.c == c) with
      | some p => some (s.ret g c p.serial o)
      | none => none
    | .complete c =>
      match s.finished.find? (fun p => p.1 == c) with
      | some p => some (s.complete g c p.2)
      | none => none
    | .callback c =>
      match s.returning.find? (fun p => p.1 == c) with
      | some p => some (s.callback c p.2)
      | none => none

/-- What is possible: the caches answer with frames that were produced, and filters do what the graph says. -/
def Action.legal (g : Graph F L) (s : State F L) : Action F L → Prop
  | .start hit _ => ∀ k f, hit k = some f → (k, f) ∈ s.produced
  | .ret c o => ∀ p ∈ s.running, p.c = c →
      g.filter (s.ctx c).key p.reason (s.ctx c).loc (s.ctx c).avail o
  | _ => True

/-- The states a schedule can lead to. -/
inductive Run (g : Graph F L) : List (Action F L) → State F L → Prop where
  | nil : Run g [] (State.init g)
  | snoc {as : List (Action F L)} {s s' : State F L} {a : Action F L} :
      Run g as s → a.legal g s → s.step g a = some s' → Run g (as ++ [a]) s'

end VS.Pool
