import Verif.Base.C
import Verif.Rational.Model

/-!
# Filter instances as seen by the frame API

A filter instance is driven in two phases: the `arInitial` activation requests frames from its input
nodes, the `arAllFramesReady` activation fetches them and returns a frame.  This file models the API
calls of the two phases (src/core/vsapi.cpp:148-171) and the checks made when a video filter is
created (src/core/vscore.cpp:1584-1601, 713-768).  How the scheduler gets from one phase to the other
is modelled separately in `Verif/Pool`.
-/

namespace VS

/-- `VSVideoInfo`, include/VapourSynth4.h.  Simplification: the video format is an abstract
identifier `fmt` (0 = undefined/variable, equal identifiers = `isSameVideoFormat`); the format structure
itself is modelled in `Verif/Format`. -/
structure VideoInfo where
  fmt : Nat
  fpsNum : Int
  fpsDen : Int
  width : Int
  height : Int
  numFrames : Int
  deriving Repr, DecidableEq

/-- `VSCore::isValidVideoInfo`, src/core/vscore.cpp:1584-1601.  Simplification: the format part
(`isValidVideoFormat`) is in `Verif/Format`. -/
def isValidVideoInfo (vi : VideoInfo) : Bool :=
  if vi.fpsDen < 0 ∨ vi.fpsNum < 0 ∨ vi.height < 0 ∨ vi.width < 0 ∨ vi.numFrames < 1 then false
  else if reduceRational vi.fpsNum vi.fpsDen ≠ .ok (vi.fpsNum, vi.fpsDen) then false
  else if decide (vi.height ≠ 0) ^^ decide (vi.width ≠ 0) then false
  else true

/-- A video frame: pixel contents (abstract) and the two duration properties. -/
structure VFrame (α : Type) where
  pix : α
  durNum : Option Int
  durDen : Option Int
  deriving Repr, DecidableEq

/-- A node together with the frames it delivers. -/
structure Clip (F : Type) where
  vi : VideoInfo
  frames : List F

/-- The clip is one a node can carry: valid info, 32 bit frame count, as many frames as declared. -/
structure Clip.Valid {F : Type} (c : Clip F) : Prop where
  info : isValidVideoInfo c.vi = true
  count : c.vi.numFrames = c.frames.length
  range : c.vi.numFrames ≤ INT_MAX

/-- A filter instance.  `initial n` is the `arInitial` activation: the list of `(node index, frame)`
passed to `requestFrameFilter` and the integers stored in `frameData[0]`, `frameData[1]`.  `ready n st fetch` is the
`arAllFramesReady` activation, with `fetch` standing for `getFrameFilter` (`none` = nullptr). -/
structure VFilter (F : Type) where
  vi : VideoInfo
  initial : Int → Res (List (Nat × Int) × (Int × Int))
  ready : Int → Int × Int → (Nat → Int → Option F) → Res F

/-- Frame number clamping of `requestFrameFilter`/`getFrameFilter`, src/core/vsapi.cpp:150-152, 159-161
(a node always has at least one frame). -/
def clampReq (numFrames n : Int) : Int := if n ≥ numFrames then numFrames - 1 else n

/-- Serving the requests of one activation (src/core/vsapi.cpp:148-154): the clamped key and the frame the
node delivers for it.  A request to a node that is not there or for a negative frame number is
outside the API contract. -/
def serve {F : Type} (clips : List (Clip F)) : List (Nat × Int) → Res (List ((Nat × Int) × F))
  | [] => .ok []
  | (i, n) :: rest =>
    match clips[i]? with
    | none => .ub
    | some c =>
      let k := clampReq c.vi.numFrames n
      if k < 0 then .ub
      else match c.frames[k.toNat]? with
        | none => .ub
        | some f => do
          let r ← serve clips rest
          pure (((i, k), f) :: r)

/-- `getFrameFilter`, src/core/vsapi.cpp:156-171. -/
def fetchFrom {F : Type} (clips : List (Clip F)) (avail : List ((Nat × Int) × F)) (i : Nat) (n : Int) :
    Option F :=
  match clips[i]? with
  | none => none
  | some c => avail.lookup (i, clampReq c.vi.numFrames n)

/-- One frame request handled by a filter instance on top of its input clips. -/
def VFilter.run {F : Type} (f : VFilter F) (clips : List (Clip F)) (n : Int) : Res F := do
  let (reqs, st) ← f.initial n
  let avail ← serve clips reqs
  f.ready n st (fetchFrom clips avail)

/-- What a create function puts into its output map: one of the input nodes or a new filter. -/
inductive Created (F : Type) where
  | passthrough (i : Nat)
  | filter (f : VFilter F)

/-- `createVideoFilter` (src/core/vsapi.cpp, src/core/vscore.cpp:713-768): the node constructor rejects an
invalid `VSVideoInfo` with an error. -/
def createVideoFilter {F : Type} (name : String) (f : VFilter F) : Res (Created F) :=
  if isValidVideoInfo f.vi then .ok (.filter f)
  else .err ("The VSVideoInfo structure passed by " ++ name ++ " is invalid.")

/-! ## What it means for a created node to output a sequence of frames -/

/-- The created node delivers exactly the frames `out`, frame `k` being `out[k]`. -/
def Created.Outputs {F : Type} (c : Created F) (clips : List (Clip F)) (out : List F) : Prop :=
  match c with
  | .passthrough i => ∃ cl, clips[i]? = some cl ∧ cl.frames = out
  | .filter f => f.vi.numFrames = out.length ∧
      ∀ (k : Nat) (h : k < out.length), f.run clips k = .ok out[k]

/-- The information the created node declares. -/
def Created.info {F : Type} (c : Created F) (clips : List (Clip F)) : Option VideoInfo :=
  match c with
  | .passthrough i => (clips[i]?).map (·.vi)
  | .filter f => some f.vi

/-- `getFrameFilter` returning nullptr and the filter handing that on as its result:
`src/core/vsthreadpool.cpp:339` aborts with "No frame returned at the end of processing". -/
def retFrame {F : Type} : Option F → Res F
  | some f => .ok f
  | none => .fatal "No frame returned at the end of processing"

end VS
