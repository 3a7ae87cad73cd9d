import Verif.Pix.Model

/-!
# FrameEval and ModifyFrame

Model of src/core/simplefilters.cpp:1371-1640 together with the part of the core that calls a filter
(src/core/vsthreadpool.cpp:200-330, src/core/vscore.cpp:1056-1110).

One call of the filter is one step. The steps of different requests are interleaved in any way; both filters are created so that
the calls which use the maps of the instance exclude each other (`fmUnordered`, or `fmParallelRequests` where only the first
call, which does not use them, runs at any time), see C17.

Simplifications: nodes are numbers with a length and frames that do not change; a frame has a number for its contents; of the
map that the function fills only the error and the first value of "val" are kept. The function is the environment: every
call gets an arbitrary reply. References to frames that are inside of a map belong to the map. An audio frame that is
treated as video gives the bytes of its format (a `union`, src/core/vscore.h:412-415) and an arbitrary height, which is not
initialized (src/core/vscore.cpp:255-277).
-/

namespace VS.Eval
open VS VS.Format VS.Pix

/-- A frame. -/
inductive Fr where
  | video (fmt : VFmt) (width height : Int) (data : Nat)
  | audio (fmt : AFmt) (samples height : Int) (data : Nat)
  deriving DecidableEq, Repr

/-- The first value of "val". -/
inductive Val where
  | node (id : Nat)
  | frame (f : Fr)
  | other
  deriving DecidableEq, Repr

/-- The map that is filled by the function. -/
structure Out where
  error : Option String
  val : Option Val
  deriving DecidableEq, Repr

/-- The map for the arguments: the values of "n" and "f". -/
structure In where
  n : List Int
  f : List Fr
  deriving DecidableEq, Repr

/-- All nodes: length and frames. -/
structure World where
  len : Nat → Nat
  frame : Nat → Nat → Fr

/-- A node and a frame number. -/
abbrev Key := Nat × Nat

/-- What belongs to the filter: `in` and `out` of `FrameEvalData` (1374-1380) and `ModifyFrameData` (1542-1548), and the
references it has to give back. -/
structure Inst where
  inp : In
  out : Out
  nodeRefs : Nat → Nat
  frameRefs : Nat

/-- After the creation. -/
def Inst.new : Inst := ⟨⟨[], []⟩, ⟨none, none⟩, fun _ => 0, 0⟩

/-- The activation reasons, include/VapourSynth4.h:127-131. -/
inductive Reason where
  | initial
  | ready
  | error
  deriving DecidableEq

/-- The return of a call: no frame, with the requests made; a frame; no frame, with an error set. -/
inductive Act where
  | wait (reqs : List Key)
  | done (f : Fr)
  | failed (msg : String)
  deriving DecidableEq

/-- `requestFrameFilter`, src/core/vsapi.cpp:148-154. -/
def requestKey (w : World) (n id : Nat) : Key := (id, if n ≥ w.len id then w.len id - 1 else n)

/-- `getFrameFilter`, src/core/vsapi.cpp:156-174. -/
def getFrame (w : World) (avail : List Key) (n id : Nat) : Option Fr :=
  let k : Key := (id, if w.len id ≠ 0 ∧ n ≥ w.len id then w.len id - 1 else n)
  if k ∈ avail then some (w.frame k.1 k.2) else none

/-- `freeFrame`, src/core/vsapi.cpp. -/
def freeFrame (s : Inst) : Res Inst :=
  if s.frameRefs = 0 then .ub else .ok { s with frameRefs := s.frameRefs - 1 }

/-- `freeNode`, src/core/vsapi.cpp:178-181. -/
def freeNode (s : Inst) : Option Nat → Res Inst
  | none => .ok s
  | some id => if s.nodeRefs id = 0 then .ub
    else .ok { s with nodeRefs := fun j => if j = id then s.nodeRefs j - 1 else s.nodeRefs j }

/-- The arguments of the function, simplefilters.cpp:1390-1395 and 1567-1573. A frame that is not there would be a null
pointer in `mapSetFrame`. -/
def collect (w : World) (avail : List Key) (n : Nat) : List Nat → Inst → Res Inst
  | [], s => .ok s
  | p :: t, s =>
    match getFrame w avail n p with
    | none => .ub
    | some f => do
      let s := { s with frameRefs := s.frameRefs + 1 }
      let s := { s with inp := { s.inp with f := s.inp.f ++ [f] } }
      let s ← freeFrame s
      collect w avail n t s

/-- `callFunction`: the function adds to the map, so values that are already there come first. -/
def callFunction (s : Inst) (reply : Out) : Inst :=
  { s with out := ⟨s.out.error.or reply.error, s.out.val.or reply.val⟩ }

/-- `clearMap`. -/
def clearIn (s : Inst) : Inst := { s with inp := ⟨[], []⟩ }

/-- `clearMap`. -/
def clearOut (s : Inst) : Inst := { s with out := ⟨none, none⟩ }

/-- The call and the node it returns, simplefilters.cpp:1396-1411 and 1449-1464: an error, or the node, now with a reference. -/
def callForNode (s : Inst) (reply : Out) : Inst × Except String Nat :=
  let s := callFunction s reply
  let s := clearIn s
  match s.out.error with
  | some m => (clearOut s, .error m)
  | none =>
    match s.out.val with
    | some (.node id) => (clearOut { s with nodeRefs := fun j => if j = id then s.nodeRefs j + 1 else s.nodeRefs j }, .ok id)
    | _ => (clearOut s, .error "FrameEval: Function didn't return a clip")

/-- `getFrameWidth(f, 0)`, src/core/vscore.h:475-478. -/
def Fr.width : Fr → Int
  | .video _ w _ _ => w
  | .audio _ n _ _ => n

/-- `getFrameHeight(f, 0)`, src/core/vscore.h:479-482. -/
def Fr.height : Fr → Int
  | .video _ _ h _ => h
  | .audio _ _ h _ => h

/-- `getVideoFrameFormat`, src/core/vscore.h:469-472: for audio the other member of the `union`. -/
def Fr.format : Fr → VFmt
  | .video f _ _ _ => f
  | .audio f _ _ _ => ⟨f.sampleType, f.bitsPerSample, f.bytesPerSample, f.numChannels, f.channelLayout % 2 ^ 32, f.channelLayout / 2 ^ 32, 0⟩

/-- The size check of FrameEval, simplefilters.cpp:1422-1428. -/
def wrongSize (vi : VInfo) (f : Fr) : Bool :=
  decide ((vi.width ≠ 0 ∨ vi.height ≠ 0) ∧ (vi.width ≠ f.width ∨ vi.height ≠ f.height))

/-- The format check, simplefilters.cpp:1430-1436. -/
def wrongFormat (vi : VInfo) (f : Fr) : Bool :=
  decide (vi.format.colorFamily ≠ cfUndefined) && !isSameVideoFormat vi.format f.format

/-- The end of FrameEval, simplefilters.cpp:1416-1437 and 1471-1491. -/
def evalFinish (w : World) (vi : VInfo) (avail : List Key) (n : Nat) (slot : Option Nat) (s : Inst) : Res (Inst × Act) :=
  match slot with
  | none => .ub
  | some id =>
    match getFrame w avail n id with
    | none => .ub
    | some f => do
      let s := { s with frameRefs := s.frameRefs + 1 }
      let s ← freeNode s (some id)
      if wrongSize vi f then do
        let s ← freeFrame s
        .ok (s, .failed "FrameEval: Returned frame has wrong dimensions")
      else if wrongFormat vi f then do
        let s ← freeFrame s
        .ok (s, .failed "FrameEval: Returned frame has wrong format")
      else .ok ({ s with frameRefs := s.frameRefs - 1 }, .done f)

/-- A filter function: number, reason, `frameData[0]`, frames that are there, reply of the function if it is called, instance.
The result has the new instance, `frameData[0]`, the return value, and the arguments of the function if it was called. -/
abbrev GetFrame := Nat → Reason → Option Nat → List Key → Out → Inst → Res (Inst × Option Nat × Act × Option In)

/-- `frameEvalGetFrameWithProps`, simplefilters.cpp:1382-1443. -/
def evalWithProps (w : World) (vi : VInfo) (props : List Nat) : GetFrame := fun n reason slot avail reply s =>
  match reason with
  | .initial => .ok (s, slot, .wait (props.map (requestKey w n)), none)
  | .ready =>
    match slot with
    | none => do
      let s := { s with inp := { s.inp with n := s.inp.n ++ [(n : Int)] } }
      let s ← collect w avail n props s
      let args := s.inp
      match callForNode s reply with
      | (s, .error m) => .ok (s, none, .failed m, some args)
      | (s, .ok id) => .ok (s, some id, .wait [requestKey w n id], some args)
    | some id => do
      let r ← evalFinish w vi avail n (some id) s
      .ok (r.1, some id, r.2, none)
  | .error => do
    let s ← freeNode s slot
    .ok (s, slot, .wait [], none)

/-- `frameEvalGetFrameNoProps`, simplefilters.cpp:1445-1497. -/
def evalNoProps (w : World) (vi : VInfo) : GetFrame := fun n reason slot avail reply s =>
  match reason with
  | .initial => do
    let s := { s with inp := { s.inp with n := s.inp.n ++ [(n : Int)] } }
    let args := s.inp
    match callForNode s reply with
    | (s, .error m) => .ok (s, slot, .failed m, some args)
    | (s, .ok id) => .ok (s, some id, .wait [requestKey w n id], some args)
  | .ready => do
    let r ← evalFinish w vi avail n slot s
    .ok (r.1, slot, r.2, none)
  | .error => do
    let s ← freeNode s slot
    .ok (s, slot, .wait [], none)

/-- The choice in `frameEvalCreate`, simplefilters.cpp:1535. -/
def evalFilter (w : World) (vi : VInfo) (props : List Nat) : GetFrame :=
  if props.length > 0 then evalWithProps w vi props else evalNoProps w vi

/-- The end of `modifyFrameGetFrame`, simplefilters.cpp:1575-1604, after the function has been called. -/
def modifyFinish (vi : VInfo) (s : Inst) : Res (Inst × Act) :=
  let s := clearIn s
  match s.out.error with
  | some m => .ok (clearOut s, .failed m)
  | none =>
    match s.out.val with
    | some (.frame f) => do
      let s := clearOut { s with frameRefs := s.frameRefs + 1 }
      if wrongFormat vi f then do
        let s ← freeFrame s
        .ok (s, .failed "ModifyFrame: Returned frame has the wrong format")
      else if wrongSize vi f then do
        let s ← freeFrame s
        .ok (s, .failed "ModifyFrame: Returned frame has the wrong dimensions")
      else .ok ({ s with frameRefs := s.frameRefs - 1 }, .done f)
    | _ => .ok (clearOut s, .failed "ModifyFrame: Returned value not a frame")

/-- `modifyFrameGetFrame`, simplefilters.cpp:1554-1608. -/
def modifyFilter (w : World) (vi : VInfo) (clips : List Nat) : GetFrame := fun n reason slot avail reply s =>
  match reason with
  | .initial => .ok (s, slot, .wait (clips.map (requestKey w n)), none)
  | .ready => do
    let s := { s with inp := { s.inp with n := s.inp.n ++ [(n : Int)] } }
    let s ← collect w avail n clips s
    let args := s.inp
    let r ← modifyFinish vi (callFunction s reply)
    .ok (r.1, slot, r.2, some args)
  | .error => .ok (s, slot, .wait [], none)

/-! ## Requests -/

/-- How a request ends. -/
inductive Result where
  | frame (f : Fr)
  | error (msg : String)
  /-- the core ends the process -/
  | fatal
  deriving DecidableEq

/-- A request for a frame: `VSFrameContext`, src/core/vscore.h:588-636. `waiting` are the frames that were requested last. `calls` and `srcError` are only for
the statements: the calls of the function with the replies, and the error of a requested frame. -/
structure Req where
  n : Nat
  slot : Option Nat
  avail : List Key
  waiting : List Key
  result : Option Result
  calls : List (In × Out)
  srcError : Option String

/-- The check of a returned frame, src/core/vscore.cpp:1079-1102: an audio frame is compared with the audio information of the
video node, which is empty. -/
def coreCheck (vi : VInfo) (f : Fr) : Result :=
  match f with
  | .video fmt w h _ =>
    if vi.format.colorFamily ≠ cfUndefined ∧ isSameVideoFormat vi.format fmt = false then .fatal
    else if (vi.width ≠ 0 ∨ vi.height ≠ 0) ∧ (w ≠ vi.width ∨ h ≠ vi.height) then .fatal
    else .frame f
  | .audio fmt _ _ _ =>
    if fmt.bitsPerSample ≠ 0 ∨ fmt.sampleType ≠ 0 ∨ fmt.channelLayout ≠ 0 then .fatal else .frame f

/-- After a call, src/core/vsthreadpool.cpp:230-345: new requests, or the end. Neither is fatal. -/
def afterCall (vi : VInfo) (r : Req) (slot : Option Nat) (call : Option In) (reply : Out) : Act → Req
  | .wait [] => { r with slot, calls := r.calls ++ (call.map (·, reply)).toList, result := some .fatal }
  | .wait l => { r with slot, calls := r.calls ++ (call.map (·, reply)).toList, waiting := l }
  | .done f => { r with slot, calls := r.calls ++ (call.map (·, reply)).toList, result := some (coreCheck vi f) }
  | .failed m => { r with slot, calls := r.calls ++ (call.map (·, reply)).toList, result := some (.error m) }

/-- The filter and all requests. -/
structure Sys where
  inst : Inst
  reqs : List Req

/-- What can happen: a new request; all frames that a request waits for are there; one of them could not be made. The reply is
that of the function if it is called. -/
inductive Event where
  | start (n : Nat) (reply : Out)
  | ready (i : Nat) (reply : Out)
  | fail (i : Nat) (msg : String)

/-- One step. Events for requests that do not exist or have ended are no events. -/
def step (vi : VInfo) (g : GetFrame) (S : Sys) : Event → Res Sys
  | .start n reply => do
    let r : Req := ⟨n, none, [], [], none, [], none⟩
    let a ← g n .initial none [] reply S.inst
    .ok ⟨a.1, S.reqs ++ [afterCall vi r a.2.1 a.2.2.2 reply a.2.2.1]⟩
  | .ready i reply =>
    match S.reqs[i]? with
    | none => .ok S
    | some r =>
      if r.result.isSome then .ok S
      else do
        let avail := r.avail ++ r.waiting
        let a ← g r.n .ready r.slot avail reply S.inst
        .ok ⟨a.1, S.reqs.set i (afterCall vi { r with avail, waiting := [] } a.2.1 a.2.2.2 reply a.2.2.1)⟩
  | .fail i msg =>
    match S.reqs[i]? with
    | none => .ok S
    | some r =>
      if r.result.isSome then .ok S
      else do
        let a ← g r.n .error r.slot r.avail ⟨none, none⟩ S.inst
        .ok ⟨a.1, S.reqs.set i { r with slot := a.2.1, waiting := [], result := some (.error msg), srcError := some msg }⟩

/-- A history. -/
def run (vi : VInfo) (g : GetFrame) : Sys → List Event → Res Sys
  | S, [] => .ok S
  | S, e :: t => do
    let S ← step vi g S e
    run vi g S t

end VS.Eval
