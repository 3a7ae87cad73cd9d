import Verif.Memory.Spec
import Verif.Base.Heap

/-!
# Frames and their planes

Model of `VSPlaneData` and `VSFrame` (src/core/vscore.h:392-505, src/core/vscore.cpp:115-401) on top
of the frame allocator of `Verif/Memory`.

Planes and frames are heap objects with explicit reference counts.  The bytes of a plane are a
function of the offset with an explicit size; touching an offset outside is undefined behaviour.
A new plane contains arbitrary bytes, given by the call that makes it.  The answers of the system
allocator and the random numbers of the pool are two arbitrary tapes in the state.

Simplifications: calls are atomic; frame properties are left out (they are maps, see `Verif/Map`);
there is no frame guard (`VS_FRAME_GUARD` is not defined in a release build) and no reference debug
list; the core outlives the frames.
-/

namespace VS.Frame
open VS

/-- `VSPlaneData`, src/core/vscore.h:392-405. -/
structure Plane where
  ref : Nat
  buf : Nat
  size : Nat
  bytes : Nat → Nat

/-- The plane objects with the allocator they live in. -/
structure PS where
  planes : Heap Plane
  mem : Memory.Mem
  sys : List (Option Nat)
  rnd : List (List Nat)

/-- `VSPlaneData(size_t, MemoryUse &)`, src/core/vscore.cpp:115-127. -/
def newPlane (s : PS) (size : Nat) (bytes : Nat → Nat) : Res (PS × Nat) := do
  let p ← Memory.step s.mem (.allocate size (s.sys.headD none))
  match p.2 with
  | none => .fatal "Failed to allocate memory for plane. Out of memory."
  | some buf =>
    .ok ({ s with planes := s.planes.alloc ⟨1, buf, size, bytes⟩, mem := p.1, sys := s.sys.tail },
      s.planes.length)

/-- The live plane at an address; anything else is a use after free. -/
def plane (s : PS) (id : Nat) : Res Plane :=
  match s.planes.get id with
  | none => .ub
  | some p => .ok p

/-- `VSPlaneData(const VSPlaneData &)`, src/core/vscore.cpp:129-136. -/
def copyPlane (s : PS) (id : Nat) : Res (PS × Nat) := do
  let p ← plane s id
  newPlane s p.size p.bytes

/-- Overwrite a plane object. -/
def PS.setPlane (s : PS) (id : Nat) (p : Plane) : PS :=
  { s with planes := s.planes.put id (some p) }

/-- `VSPlaneData::add_ref`, src/core/vscore.cpp:146-148. -/
def addPlane (s : PS) (id : Nat) : Res PS := do
  let p ← plane s id
  .ok (s.setPlane id { p with ref := p.ref + 1 })

/-- `VSPlaneData::release` and the destructor, src/core/vscore.cpp:138-140, 150-153. -/
def releasePlane (s : PS) (id : Nat) : Res PS := do
  let p ← plane s id
  if p.ref = 1 then do
    let q ← Memory.step s.mem (.deallocate p.buf (s.rnd.headD []))
    .ok { s with planes := s.planes.put id none, mem := q.1, rnd := s.rnd.tail }
  else .ok (s.setPlane id { p with ref := p.ref - 1 })

/-- The parts of a video or audio format that matter here.  For audio `numPlanes` is the number of
channels, include/VapourSynth4.h:203-224. -/
structure Fmt where
  audio : Bool
  numPlanes : Nat
  bps : Nat
  ssw : Nat
  ssh : Nat
  deriving DecidableEq, Repr

/-- `VSFrame`, src/core/vscore.h:407-420; `data` are the pointers that are not null: three for video
with three planes, otherwise one.  `stride` is `stride[0]`. -/
structure Frame where
  ref : Nat
  fmt : Fmt
  width : Nat
  height : Nat
  data : List Nat
  stride : Nat
  deriving DecidableEq, Repr

/-- The state: plane store, frames and `VSFrame::alignment`. -/
structure World where
  ps : PS
  frames : Heap Frame
  align : Nat

/-- `getWidth`, src/core/vscore.h:479-482. -/
def Frame.widthOf (f : Frame) (plane : Nat) : Nat :=
  f.width >>> (if plane = 0 then 0 else f.fmt.ssw)

/-- `getHeight`, src/core/vscore.h:483-486. -/
def Frame.heightOf (f : Frame) (plane : Nat) : Nat :=
  f.height >>> (if plane = 0 then 0 else f.fmt.ssh)

/-- `(width * bytesPerSample + (alignment - 1)) & ~(alignment - 1)`,
src/core/vscore.cpp:188, 191, 223, 226. -/
def strideOf (align width bps : Nat) : Nat := (width * bps + (align - 1)) / align * align

/-- Stride of one plane of a frame to be made, src/core/vscore.cpp:188-197, 223-232. -/
def planeStride (align : Nat) (f : Frame) (i : Nat) : Nat := strideOf align (f.widthOf i) f.fmt.bps

/-- Size of one plane, `stride * height` in 64 bit signed arithmetic,
src/core/vscore.cpp:199-204, 243-247. -/
def planeSize (align : Nat) (f : Frame) (i : Nat) : Res Nat := do
  let x ← i64 (planeStride align f i * f.heightOf i : Nat)
  .ok x.toNat

/-- The live frame at an address. -/
def frame (w : World) (id : Nat) : Res Frame :=
  match w.frames.get id with
  | none => .ub
  | some f => .ok f

/-- `data[i]` of a video frame; a null or missing pointer is dereferenced by all users. -/
def dataOf (f : Frame) (i : Nat) : Res Nat :=
  match f.data[i]? with
  | none => .ub
  | some id => .ok id

/-- A source plane of `newVideoFrame2`: the frame and the plane number. -/
abbrev Src := Option (Nat × Int)

/-- The check of one source plane; gives the plane object, src/core/vscore.cpp:236-241. -/
def sourcePlane (w : World) (f : Frame) (i : Nat) (g : Nat) (p : Int) : Res Nat := do
  let src ← frame w g
  if p < 0 ∨ p ≥ src.fmt.numPlanes then
    .fatal "Error in frame creation: plane does not exist in the source frame"
  else if src.heightOf p.toNat ≠ f.heightOf i ∨ src.widthOf p.toNat ≠ f.widthOf i then
    .fatal "Error in frame creation: dimensions of plane do not match."
  else dataOf src p.toNat

/-- One turn of the plane loop, src/core/vscore.cpp:234-249. -/
def buildPlane (w : World) (f : Frame) (junk : Nat → Nat → Nat) (s : PS) (i : Nat) (src : Src) :
    Res (PS × Nat) :=
  match src with
  | some (g, p) => do
    let id ← sourcePlane w f i g p
    let s ← addPlane s id
    .ok (s, id)
  | none => do
    let n ← planeSize w.align f i
    newPlane s n (junk i)

/-- The plane loop over the sources from plane `i` on. -/
def buildPlanes (w : World) (f : Frame) (junk : Nat → Nat → Nat) : PS → Nat → List Src →
    Res (PS × List Nat)
  | s, _, [] => .ok (s, [])
  | s, i, src :: t => do
    let p ← buildPlane w f junk s i src
    let q ← buildPlanes w f junk p.1 (i + 1) t
    .ok (q.1, p.2 :: q.2)

/-- The frame object before its planes are made. -/
def blank (fmt : Fmt) (width height stride : Nat) : Frame := ⟨1, fmt, width, height, [], stride⟩

/-- `VSFrame` from source planes (`newVideoFrame2`), src/core/vscore.cpp:210-253. -/
def newVideo2 (w : World) (fmt : Fmt) (width height : Int) (srcs : List Src)
    (junk : Nat → Nat → Nat) : Res (World × Nat) :=
  if width ≤ 0 ∨ height ≤ 0 then .fatal "Error in frame creation: dimensions are negative"
  else do
    let f := blank fmt width.toNat height.toNat (strideOf w.align width.toNat fmt.bps)
    let p ← buildPlanes w f junk w.ps 0 srcs
    .ok ({ w with ps := p.1, frames := w.frames.alloc { f with data := p.2 } }, w.frames.length)

/-- `VSFrame` with new planes (`newVideoFrame`), src/core/vscore.cpp:175-208. -/
def newVideo (w : World) (fmt : Fmt) (width height : Int) (junk : Nat → Nat → Nat) :
    Res (World × Nat) :=
  newVideo2 w fmt width height (List.replicate fmt.numPlanes none) junk

/-- `VS_AUDIO_FRAME_SAMPLES`, include/VapourSynth4.h. -/
def SAMPLES : Nat := 3072

/-- `memcpy` between planes. -/
def copyBytes (dst src : Nat → Nat) (doff soff len : Nat) : Nat → Nat :=
  fun i => if doff ≤ i ∧ i < doff + len then src (i - doff + soff) else dst i

/-- One turn of the channel loop, src/core/vscore.cpp:299-307. -/
def copyChannel (w : World) (f : Frame) (s : PS) (id i : Nat) (src : Src) : Res PS :=
  match src with
  | none => .ok s
  | some (g, c) => do
    let sf ← frame w g
    if c < 0 ∨ c ≥ sf.fmt.numPlanes then
      .fatal "Error in frame creation: channel does not exist in the source frame"
    else if sf.width ≠ f.width then
      .fatal "Error in frame creation: length of frame does not match."
    else do
      let sid ← dataOf sf 0
      let sp ← plane s sid
      let dp ← plane s id
      let len := f.width * f.fmt.bps
      if i * f.stride + len ≤ dp.size ∧ c.toNat * sf.stride + len ≤ sp.size then
        .ok (s.setPlane id { dp with
          bytes := copyBytes dp.bytes sp.bytes (i * f.stride) (c.toNat * sf.stride) len })
      else .ub

/-- The channel loop. -/
def copyChannels (w : World) (f : Frame) (id : Nat) : PS → Nat → List Src → Res PS
  | s, _, [] => .ok s
  | s, i, src :: t => do
    let s ← copyChannel w f s id i src
    copyChannels w f id s (i + 1) t

/-- Audio `VSFrame` with channels copied from other frames (`newAudioFrame2`),
src/core/vscore.cpp:279-311. -/
def newAudio2 (w : World) (fmt : Fmt) (samples : Int) (srcs : List Src) (junk : Nat → Nat) :
    Res (World × Nat) :=
  if samples ≤ 0 then .fatal "Error in frame creation: bad number of samples"
  else do
    let f := blank fmt samples.toNat 0 (fmt.bps * SAMPLES)
    let p ← newPlane w.ps (f.stride * fmt.numPlanes) junk
    let s ← copyChannels w f p.2 p.1 0 srcs
    .ok ({ w with ps := s, frames := w.frames.alloc { f with data := [p.2] } }, w.frames.length)

/-- Audio `VSFrame` (`newAudioFrame`), src/core/vscore.cpp:255-277. -/
def newAudio (w : World) (fmt : Fmt) (samples : Int) (junk : Nat → Nat) : Res (World × Nat) :=
  newAudio2 w fmt samples [] junk

/-- `add_ref` on every plane pointer, src/core/vscore.cpp:323-327. -/
def addPlanes : PS → List Nat → Res PS
  | s, [] => .ok s
  | s, id :: t => do
    let s ← addPlane s id
    addPlanes s t

/-- `VSFrame(const VSFrame &)` (`copyFrame`), src/core/vscore.cpp:313-341. -/
def copyFrame (w : World) (g : Nat) : Res (World × Nat) := do
  let f ← frame w g
  let s ← addPlanes w.ps f.data
  .ok ({ w with ps := s, frames := w.frames.alloc { f with ref := 1 } }, w.frames.length)

/-- `release` on every plane pointer, src/core/vscore.cpp:343-348. -/
def releasePlanes : PS → List Nat → Res PS
  | s, [] => .ok s
  | s, id :: t => do
    let s ← releasePlane s id
    releasePlanes s t

/-- `addFrameRef`, src/core/vsapi.cpp:59-63. -/
def addRef (w : World) (g : Nat) : Res World := do
  let f ← frame w g
  .ok { w with frames := w.frames.put g (some { f with ref := f.ref + 1 }) }

/-- `freeFrame` and the destructor, src/core/vsapi.cpp:173-176, src/core/vscore.h:451-455,
src/core/vscore.cpp:343-353. -/
def freeFrame (w : World) (g : Nat) : Res World := do
  let f ← frame w g
  if f.ref = 1 then do
    let s ← releasePlanes w.ps f.data
    .ok { w with ps := s, frames := w.frames.put g none }
  else .ok { w with frames := w.frames.put g (some { f with ref := f.ref - 1 }) }

/-- The data pointer and the offset of a plane or channel, src/core/vscore.cpp:374-377. -/
def Frame.slot (f : Frame) (p : Nat) : Nat × Nat :=
  if f.fmt.audio = true then (0, p * f.stride) else (p, 0)

/-- A pointer into a plane buffer. -/
structure Ptr where
  buf : Nat
  off : Nat
  deriving DecidableEq, Repr

/-- Copy the plane object in slot `k` if it is shared, src/core/vscore.cpp:385-389, 393-397. -/
def makeUnique (w : World) (g : Nat) (f : Frame) (k : Nat) : Res (World × Nat) := do
  let id ← dataOf f k
  let p ← plane w.ps id
  if p.ref = 1 then .ok (w, p.buf)
  else do
    let c ← copyPlane w.ps id
    let s ← releasePlane c.1 id
    let q ← plane s c.2
    .ok ({ w with ps := s, frames := w.frames.put g (some { f with data := f.data.set k c.2 }) },
      q.buf)

/-- `getWritePtr`, src/core/vscore.cpp:379-401. -/
def getWritePtr (w : World) (g : Nat) (p : Int) : Res (World × Option Ptr) := do
  let f ← frame w g
  if p < 0 ∨ p ≥ f.fmt.numPlanes then .ok (w, none)
  else do
    let r ← makeUnique w g f (f.slot p.toNat).1
    .ok (r.1, some ⟨r.2, (f.slot p.toNat).2⟩)

/-- Read one byte through `getReadPtr`, src/core/vscore.cpp:369-377. -/
def readByte (w : World) (g : Nat) (p : Int) (off : Nat) : Res (Option Nat) := do
  let f ← frame w g
  if p < 0 ∨ p ≥ f.fmt.numPlanes then .ok none
  else do
    let id ← dataOf f (f.slot p.toNat).1
    let d ← plane w.ps id
    if (f.slot p.toNat).2 + off < d.size then .ok (some (d.bytes ((f.slot p.toNat).2 + off)))
    else .ub

/-- The plane object a buffer pointer belongs to. -/
def findBuf (buf : Nat) : Heap Plane → Nat → Option Nat
  | [], _ => none
  | none :: t, i => findBuf buf t (i + 1)
  | some p :: t, i => if p.buf = buf then some i else findBuf buf t (i + 1)

/-- Store a byte through a pointer. -/
def store (w : World) (a : Ptr) (v : Nat) : Res World :=
  match findBuf a.buf w.ps.planes 0 with
  | none => .ub
  | some id =>
    match w.ps.planes.get id with
    | none => .ub
    | some p =>
      if a.off < p.size then
        .ok { w with ps := w.ps.setPlane id { p with
          bytes := fun i => if i = a.off then v else p.bytes i } }
      else .ub

/-- The calls of a user. -/
inductive Op where
  | newVideo (fmt : Fmt) (width height : Int) (junk : Nat → Nat → Nat)
  | newVideo2 (fmt : Fmt) (width height : Int) (srcs : List Src) (junk : Nat → Nat → Nat)
  | newAudio (fmt : Fmt) (samples : Int) (junk : Nat → Nat)
  | newAudio2 (fmt : Fmt) (samples : Int) (srcs : List Src) (junk : Nat → Nat)
  | copyFrame (g : Nat)
  | addRef (g : Nat)
  | freeFrame (g : Nat)
  | getWritePtr (g : Nat) (p : Int)
  | store (a : Ptr) (v : Nat)

/-- The answer of a call. -/
inductive Out where
  | none
  | frame (g : Nat)
  | ptr (a : Option Ptr)
  deriving DecidableEq, Repr

/-- Helper: a call that makes a frame. -/
def made (r : Res (World × Nat)) : Res (World × Out) := do
  let p ← r
  .ok (p.1, .frame p.2)

/-- Helper: a call without an answer. -/
def quiet (r : Res World) : Res (World × Out) := do
  let w ← r
  .ok (w, .none)

/-- One call. -/
def step (w : World) : Op → Res (World × Out)
  | .newVideo fmt x y junk => made (newVideo w fmt x y junk)
  | .newVideo2 fmt x y srcs junk => made (newVideo2 w fmt x y srcs junk)
  | .newAudio fmt n junk => made (newAudio w fmt n junk)
  | .newAudio2 fmt n srcs junk => made (newAudio2 w fmt n srcs junk)
  | .copyFrame g => made (copyFrame w g)
  | .addRef g => quiet (addRef w g)
  | .freeFrame g => quiet (freeFrame w g)
  | .getWritePtr g p => do
    let r ← getWritePtr w g p
    .ok (r.1, .ptr r.2)
  | .store a v => quiet (store w a v)

end VS.Frame
