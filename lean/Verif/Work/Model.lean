import Verif.Pool.Model

/-!
# The worker threads of the scheduler

Model of the part of src/core/vsthreadpool.cpp that `Verif.Pool` leaves out: which threads exist, when
they sleep and who wakes them, the number of threads, blocking calls of `getFrame` from worker threads, the
lock around callbacks, and the end of the pool.

A state is a state of `Verif.Pool` together with the threads.  A step is what one thread does between two
points where it waits for a lock, a condition variable or user code.  The code that runs with `taskLock`
held is one step.

Simplifications:
* whether memory is over its limit is an arbitrary input each time the code asks;
* whether a call is refused because it may not fit into memory is an arbitrary input (`full`), but as in
  the code only looked at while some call is in progress;
* a thread that is joined and erased from `allThreads` stays in the list as `gone`; the size of `allThreads`
  is compared only while no thread has ended;
* log messages are left out (they are written without `taskLock`).
-/

namespace VS.Work

open VS.Pool (Key Graph Outcome)

/-- Where a worker thread is. -/
inductive At where
  /-- at the top of the loop of `runTasks`, before it has `taskLock` (src/core/vsthreadpool.cpp:94) -/
  | scan
  /-- inside the filter call of a computation (230) -/
  | call (c : Nat)
  /-- after the call, before it has `taskLock` again (274) -/
  | back (c : Nat)
  /-- in `returnFrame`, before `frameDone` is called (461-475) -/
  | out (c : Nat)
  /-- inside `frameDone` (476, 484) -/
  | user (c : Nat)
  /-- after `frameDone`, before it has `taskLock` again (490) -/
  | told (c : Nat)
  /-- in `newWork.wait` (376) -/
  | sleep
  /-- woken up, before it has `taskLock` again (376) -/
  | woken
  /-- after the loop (349-352) -/
  | gone
  deriving DecidableEq, Repr

/-- A worker thread; `wait` is the request it waits for inside `getFrame` (src/core/vsapi.cpp:142-145). -/
structure Worker where
  place : At
  wait : Option Nat := none
  deriving DecidableEq, Repr

/-- The pool with its threads. -/
structure State (F L : Type) where
  pool : Pool.State F L
  /-- `allThreads`, oldest first -/
  ws : List Worker
  /-- `activeThreads`, `idleThreads`: of type `size_t` in the code; below 0 would be a wrapped value -/
  active : Int
  idle : Int
  /-- `maxThreads` -/
  max : Nat
  /-- requests with `reserveThread` for which `activeThreads` was not raised again -/
  reserved : List Nat
  /-- requests with `lockOnOutput`, that is those made by `getFrameAsync` (src/core/vsapi.cpp:94, 143) -/
  async : List Nat
  /-- whether `callbackLock` is held -/
  cbLock : Bool
  /-- `stopThreads` -/
  stop : Bool

variable {F L : Type}

/-- The constructor, src/core/vsthreadpool.cpp:386-388, for a machine with `n` processors or a later call of
`setThreadCount`. -/
def State.init (g : Graph F L) (n : Nat) : State F L :=
  { pool := Pool.State.init g, ws := [], active := 0, idle := 0, max := n, reserved := [], async := []
    cbLock := false, stop := false }

/-- The worker is in `newWork.wait`. -/
def Worker.sleeps (w : Worker) : Bool := w.place == .sleep

/-- `newWork.notify_one`: some waiting thread wakes up if there is one; `who` says which one. -/
def notifyOne (ws : List Worker) (who : Nat) : List Worker :=
  let i := if (ws[who]?.map Worker.sleeps) = some true then who else ws.findIdx Worker.sleeps
  ws.modify i (fun w => { w with place := .woken })

/-- `newWork.notify_all`. -/
def notifyAll (ws : List Worker) : List Worker :=
  ws.map (fun w => if w.sleeps then { w with place := .woken } else w)

/-- `wakeThread`, src/core/vsthreadpool.cpp:426-438, with `spawnThread`, 395-399; `over` is
`is_over_limit`. -/
def State.wakeThread (s : State F L) (over : Bool) (who : Nat) : State F L :=
  if s.active < s.max then
    if over && decide (s.active > 0) then s
    else if s.idle = 0 then { s with ws := s.ws ++ [⟨.scan, none⟩], active := s.active + 1 }
    else { s with ws := notifyOne s.ws who }
  else s

/-- `wakeThread` for each of `n` queued tasks, src/core/vsthreadpool.cpp:420-424. -/
def State.wakes (s : State F L) (over : Nat → Bool) (who : Nat → Nat) : Nat → State F L
  | 0 => s
  | n + 1 => (s.wakes over who n).wakeThread (over n) (who n)

def State.put (s : State F L) (i : Nat) (w : Worker) : State F L := { s with ws := s.ws.set i w }

/-- A worker has nothing to do, src/core/vsthreadpool.cpp:348-379. -/
def State.park (s : State F L) (i : Nat) : State F L :=
  let s1 := { s with active := s.active - 1 }
  if s.stop then s1.put i ⟨.gone, none⟩
  else
    let s2 := { s1 with idle := s1.idle + 1 }
    if s2.idle = s2.ws.length ∧ s.pool.flush = true then
      { s2 with pool := s.pool.swap, active := s2.active + 1, idle := s2.idle - 1, ws := notifyAll s2.ws }
    else s2.put i ⟨.sleep, none⟩

/-- The end of the loop after a task was run, src/core/vsthreadpool.cpp:347. -/
def State.after (s : State F L) (i : Nat) (over : Bool) : State F L :=
  if s.active > s.max || (over && decide (s.active > 1)) then s.park i else s

/-- Has the callback of a request been called? -/
def answered (p : Pool.State F L) (c : Nat) : Bool :=
  p.trace.any (fun e => match e with | .callback d _ _ => d == c | _ => false)

/-- User code runs here that may call `getFrame`: a filter, or a callback given to `getFrameAsync`. -/
def State.mayBlock (s : State F L) : At → Bool
  | .call _ => true
  | .user c => c ∈ s.async
  | _ => false

inductive Action (F L : Type) where
  /-- any thread calls `getFrameAsync` (`async`), or a thread that is no worker calls `getFrame` -/
  | request (k : Key) (async over : Bool) (who : Nat)
  /-- worker `i` calls `getFrame` -/
  | block (i : Nat) (k : Key) (over : Bool) (who : Nat)
  /-- `getFrame` returns in worker `i` -/
  | unblock (i : Nat)
  /-- worker `i` looks for work -/
  | scan (i : Nat) (hit : Key → Option F) (full : Key → Bool) (over : Nat → Bool) (who : Nat → Nat) (over' : Bool)
  /-- the filter called by worker `i` returns -/
  | ret (i : Nat) (o : Outcome F L)
  /-- worker `i` goes on after a call; `note` says who is told that memory may have become free, `fl` whether
  memory was over the limit for too long -/
  | complete (i : Nat) (note : Option Nat) (fl : Bool) (over : Nat → Bool) (who : Nat → Nat) (over' : Bool)
  /-- worker `i` calls `frameDone` -/
  | enter (i : Nat)
  /-- `frameDone` returns -/
  | leave (i : Nat)
  /-- worker `i` goes on after `frameDone` -/
  | resume (i : Nat) (over : Bool)
  /-- worker `i` goes on after `newWork.wait` -/
  | wake (i : Nat)
  /-- worker `i` wakes up without reason -/
  | spurious (i : Nat)
  /-- `setThreadCount` -/
  | threads (n : Nat)
  /-- the destructor begins -/
  | stop

/-- One step; `none` if it cannot be taken. -/
def State.step (g : Graph F L) (s : State F L) (a : Action F L) : Option (State F L) :=
  if s.pool.dead.isSome then none
  else match a with
    -- src/core/vsapi.cpp:91-100, 128-146 and `startExternal`, src/core/vsthreadpool.cpp:440-459
    | .request k async over who =>
      let s1 := { s with
        pool := s.pool.request g k false
        async := if async then s.pool.next :: s.async else s.async }
      some (if s.pool.flush then s1 else s1.wakeThread over who)
    -- src/core/vsapi.cpp:128-146: `getFrame` checks the number itself; `startExternal`, 440-459
    | .block i k over who =>
      match s.ws[i]? with
      | some ⟨p, none⟩ =>
        if s.mayBlock p && decide (0 ≤ k.2) && decide (k.2 < g.numFrames k.1) then
          let s1 := { s with
            pool := s.pool.request g k true
            active := s.active - 1
            reserved := s.pool.next :: s.reserved }
          some ((s1.put i ⟨p, some s.pool.next⟩).wakeThread over who)
        else none
      | _ => none
    -- src/core/vsapi.cpp:144-145
    | .unblock i =>
      match s.ws[i]? with
      | some ⟨p, some c⟩ => if answered s.pool c then some (s.put i ⟨p, none⟩) else none
      | _ => none
    -- src/core/vsthreadpool.cpp:94-230
    | .scan i hit full over who over' =>
      match s.ws[i]? with
      | some ⟨.scan, none⟩ =>
        match s.pool.pick g hit full s.pool.tasks [] with
        | .none => some (s.park i)
        | .call c serial => some ({ s with pool := s.pool.call g c serial }.put i ⟨.call c, none⟩)
        | .hit c f =>
          let p := s.pool.hit c f
          if (s.pool.ctx c).external then some ({ s with pool := p }.put i ⟨.out c, none⟩)
          else
            some (({ s with pool := p }.wakes over who (p.tasks.length + 1 - s.pool.tasks.length)).after i over')
      | _ => none
    -- src/core/vsthreadpool.cpp:230-252
    | .ret i o =>
      match s.ws[i]? with
      | some ⟨.call c, none⟩ =>
        match s.pool.step g (.ret c o) with
        | some p => some ({ s with pool := p }.put i ⟨.back c, none⟩)
        | none => none
      | _ => none
    -- src/core/vsthreadpool.cpp:274-347
    | .complete i note fl over who over' =>
      match s.ws[i]? with
      | some ⟨.back c, none⟩ =>
        match (if fl then { s.pool with flush := true } else s.pool).step g (.complete c) with
        | none => none
        | some p =>
          -- `logFatal` does not return
          if p.dead.isSome then some { s with pool := p }
          else
          let s1 := { s with
            pool := p
            ws := match note with
              | some w => if s.idle > 0 then notifyOne s.ws w else s.ws
              | none => s.ws }
          let s2 := s1.wakes over who (p.tasks.length - s.pool.tasks.length)
          if s.pool.returning.length < p.returning.length then some (s2.put i ⟨.out c, none⟩)
          else some ((s2.put i ⟨.scan, none⟩).after i over')
      | _ => none
    -- src/core/vsthreadpool.cpp:473-484
    | .enter i =>
      match s.ws[i]? with
      | some ⟨.out c, none⟩ =>
        if c ∈ s.async then
          if s.cbLock then none else some ({ s with cbLock := true }.put i ⟨.user c, none⟩)
        else some (s.put i ⟨.user c, none⟩)
      | _ => none
    -- src/core/vsthreadpool.cpp:476-486, src/core/vsapi.cpp:112-126
    | .leave i =>
      match s.ws[i]? with
      | some ⟨.user c, none⟩ =>
        match s.pool.step g (.callback c) with
        | some p =>
          some ({ s with pool := p, cbLock := if c ∈ s.async then false else s.cbLock }.put i ⟨.told c, none⟩)
        | none => none
      | _ => none
    -- src/core/vsthreadpool.cpp:490-492, 347
    | .resume i over =>
      match s.ws[i]? with
      | some ⟨.told c, none⟩ =>
        let s1 := if c ∈ s.reserved then { s with active := s.active + 1, reserved := s.reserved.erase c } else s
        some ((s1.put i ⟨.scan, none⟩).after i over)
      | _ => none
    -- src/core/vsthreadpool.cpp:375-379
    | .wake i =>
      match s.ws[i]? with
      | some ⟨.woken, none⟩ =>
        if s.active ≥ s.max ∧ s.stop = false then some (s.put i ⟨.sleep, none⟩)
        else some ({ s with idle := s.idle - 1, active := s.active + 1 }.put i ⟨.scan, none⟩)
      | _ => none
    | .spurious i =>
      match s.ws[i]? with
      | some ⟨.sleep, none⟩ => some (s.put i ⟨.woken, none⟩)
      | _ => none
    -- src/core/vsthreadpool.cpp:401-418; 0 stands for the number of processors, at least 1
    | .threads n => if 0 < n then some { s with max := n } else none
    -- src/core/vsthreadpool.cpp:521-535
    | .stop => some { s with stop := true, ws := notifyAll s.ws }

/-- What is possible: the caches answer with frames that were produced, and filters do what the graph says. -/
def Action.legal (g : Graph F L) (s : State F L) : Action F L → Prop
  | .scan _ hit _ _ _ _ => ∀ k f, hit k = some f → (k, f) ∈ s.pool.produced
  | .ret i o => ∀ c, s.ws[i]? = some ⟨.call c, none⟩ → ∀ p ∈ s.pool.running, p.c = c →
      g.filter (s.pool.ctx c).key p.reason (s.pool.ctx c).loc (s.pool.ctx c).avail o
  | _ => True

/-- The states a schedule can lead to, with `n` threads at the beginning. -/
inductive Run (g : Graph F L) (n : Nat) : List (Action F L) → State F L → Prop where
  | nil : 0 < n → Run g n [] (State.init g n)
  | snoc {as : List (Action F L)} {s s' : State F L} {a : Action F L} :
      Run g n as s → a.legal g s → s.step g a = some s' → Run g n (as ++ [a]) s'

end VS.Work
