import Verif.Frame.Model

/-!
# Frames as values

What a user expects of frames: every frame has its own copy of its pixels, nothing is shared.
Creating a frame from planes of others, or copying one, copies the pixels.  A pointer from
`getWritePtr` is a licence to write that plane of that frame; it ends when the plane is used as the
source of another frame or the frame is gone.
-/

namespace VS.Frame
open VS

/-- The pixels of one plane (all channels of an audio frame are one plane). -/
structure SPlane where
  size : Nat
  bytes : Nat → Nat

/-- A frame that owns its pixels. -/
structure SFrame where
  ref : Nat
  fmt : Fmt
  width : Nat
  height : Nat
  stride : Nat
  planes : List SPlane

/-- A licence to write through a pointer. -/
structure Token where
  buf : Nat
  frame : Nat
  slot : Nat
  deriving DecidableEq, Repr

/-- The world of values. -/
structure SWorld where
  frames : Heap SFrame
  tokens : List Token
  align : Nat

/-- The pixels a plane starts with: arbitrary ones, or a copy. -/
def SWorld.initial (s : SWorld) (size : Nat → Nat) (junk : Nat → Nat → Nat) (i : Nat) :
    Src → SPlane
  | none => ⟨size i, junk i⟩
  | some (g, p) =>
    match s.frames.get g with
    | none => ⟨0, fun _ => 0⟩
    | some f => f.planes.getD p.toNat ⟨0, fun _ => 0⟩

/-- All planes of a new frame, from plane `i` on. -/
def SWorld.initials (s : SWorld) (size : Nat → Nat) (junk : Nat → Nat → Nat) :
    Nat → List Src → List SPlane
  | _, [] => []
  | i, src :: t => s.initial size junk i src :: s.initials size junk (i + 1) t

/-- End the licences on the planes used as sources. -/
def SWorld.shareSrcs (s : SWorld) (srcs : List Src) : SWorld :=
  { s with tokens := s.tokens.filter (fun t =>
      !(srcs.any (fun src => match src with
        | none => false
        | some (g, p) => t.frame = g && t.slot = p.toNat))) }

/-- End all licences on a frame. -/
def SWorld.dropTokens (s : SWorld) (g : Nat) : SWorld :=
  { s with tokens := s.tokens.filter (fun t => t.frame ≠ g) }

/-- Add a frame. -/
def SWorld.add (s : SWorld) (f : SFrame) : SWorld := { s with frames := s.frames.alloc f }

/-- Bytes of a row rounded up to the alignment, times the rows. -/
def videoSize (align : Nat) (fmt : Fmt) (width height : Nat) (i : Nat) : Nat :=
  strideOf align (width >>> (if i = 0 then 0 else fmt.ssw)) fmt.bps *
    (height >>> (if i = 0 then 0 else fmt.ssh))

/-- A new video frame. -/
def SWorld.video (s : SWorld) (fmt : Fmt) (width height : Nat) (srcs : List Src)
    (junk : Nat → Nat → Nat) : SFrame :=
  ⟨1, fmt, width, height, strideOf s.align width fmt.bps,
    s.initials (videoSize s.align fmt width height) junk 0 srcs⟩

/-- Channel `c` of an audio frame of values: a byte of the channel. -/
def SFrame.channel (f : SFrame) (c off : Nat) : Nat :=
  (f.planes.getD 0 ⟨0, fun _ => 0⟩).bytes (c * f.stride + off)

/-- The samples a new audio frame starts with: byte `x` belongs to channel `x / stride`; the first
`len` bytes of a channel with a source are those of the source. -/
def SWorld.audioBytes (s : SWorld) (stride len : Nat) (srcs : List Src) (junk : Nat → Nat) :
    Nat → Nat :=
  fun x =>
    match srcs[x / stride]? with
    | some (some (g, c)) =>
      match s.frames.get g with
      | some f => if x % stride < len then f.channel c.toNat (x % stride) else junk x
      | none => junk x
    | _ => junk x

/-- A new audio frame. -/
def SWorld.audio (s : SWorld) (fmt : Fmt) (samples : Nat) (srcs : List Src) (junk : Nat → Nat) :
    SFrame :=
  ⟨1, fmt, samples, 0, fmt.bps * SAMPLES,
    [⟨fmt.bps * SAMPLES * fmt.numPlanes,
      s.audioBytes (fmt.bps * SAMPLES) (samples * fmt.bps) srcs junk⟩]⟩

/-- Change one byte of one plane of one frame. -/
def SFrame.write (f : SFrame) (k off v : Nat) : SFrame :=
  match f.planes[k]? with
  | none => f
  | some p =>
    let q : SPlane := ⟨p.size, fun i => if i = off then v else p.bytes i⟩
    { f with planes := f.planes.set k q }

/-- Which plane of values a plane or channel number means. -/
def SFrame.slot (f : SFrame) (p : Nat) : Nat := if f.fmt.audio = true then 0 else p

/-- What a call does in the world of values, given its answer. -/
def SWorld.next (s : SWorld) : Op → Out → SWorld
  | .newVideo fmt x y junk, _ =>
    s.add (s.video fmt x.toNat y.toNat (List.replicate fmt.numPlanes none) junk)
  | .newVideo2 fmt x y srcs junk, _ =>
    (s.add (s.video fmt x.toNat y.toNat srcs junk)).shareSrcs srcs
  | .newAudio fmt n junk, _ => s.add (s.audio fmt n.toNat [] junk)
  | .newAudio2 fmt n srcs junk, _ => s.add (s.audio fmt n.toNat srcs junk)
  | .copyFrame g, _ =>
    match s.frames.get g with
    | none => s
    | some f => (s.add { f with ref := 1 }).dropTokens g
  | .addRef g, _ =>
    match s.frames.get g with
    | none => s
    | some f => { s with frames := s.frames.put g (some { f with ref := f.ref + 1 }) }
  | .freeFrame g, _ =>
    match s.frames.get g with
    | none => s
    | some f =>
      if f.ref = 1 then { s with frames := s.frames.put g none }.dropTokens g
      else { s with frames := s.frames.put g (some { f with ref := f.ref - 1 }) }
  | .getWritePtr g p, .ptr (some a) =>
    match s.frames.get g with
    | none => s
    | some f => { s with tokens := ⟨a.buf, g, f.slot p.toNat⟩ :: s.tokens }
  | .getWritePtr _ _, _ => s
  | .store a v, _ =>
    match s.tokens.find? (fun t => t.buf = a.buf) with
    | none => s
    | some t =>
      match s.frames.get t.frame with
      | none => s
      | some f => { s with frames := s.frames.put t.frame (some (f.write t.slot a.off v)) }

/-- A legal source plane for plane `i` of a video frame of the given size. -/
def SWorld.LegalSrc (s : SWorld) (fmt : Fmt) (width height i : Nat) : Src → Prop
  | none => videoSize s.align fmt width height i < 9223372036854775808
  | some (g, p) => ∃ f, s.frames.get g = some f ∧ f.fmt.audio = false ∧ 0 ≤ p ∧
      p < f.fmt.numPlanes ∧
      f.width >>> (if p.toNat = 0 then 0 else f.fmt.ssw) =
        width >>> (if i = 0 then 0 else fmt.ssw) ∧
      f.height >>> (if p.toNat = 0 then 0 else f.fmt.ssh) =
        height >>> (if i = 0 then 0 else fmt.ssh)

/-- A legal source channel. -/
def SWorld.LegalChannel (s : SWorld) (fmt : Fmt) (samples : Nat) : Src → Prop
  | none => True
  | some (g, c) => ∃ f, s.frames.get g = some f ∧ f.fmt.audio = true ∧ 0 ≤ c ∧
      c < f.fmt.numPlanes ∧ f.width = samples ∧ f.fmt.bps = fmt.bps

/-- The documented contract of the calls: live frames, sane formats and sizes, matching sources,
stores only with a licence and inside of the plane. -/
def SWorld.Legal (s : SWorld) : Op → Prop
  | .newVideo fmt x y _ => fmt.audio = false ∧ 0 < x ∧ 0 < y ∧
      (fmt.numPlanes = 1 ∨ fmt.numPlanes = 3) ∧
      ∀ i < fmt.numPlanes, videoSize s.align fmt x.toNat y.toNat i < 9223372036854775808
  | .newVideo2 fmt x y srcs _ => fmt.audio = false ∧ 0 < x ∧ 0 < y ∧
      (fmt.numPlanes = 1 ∨ fmt.numPlanes = 3) ∧
      srcs.length = fmt.numPlanes ∧
      ∀ i (h : i < srcs.length), s.LegalSrc fmt x.toNat y.toNat i srcs[i]
  | .newAudio fmt n _ => fmt.audio = true ∧ 0 < n ∧ n ≤ SAMPLES ∧ 0 < fmt.numPlanes ∧
      fmt.numPlanes ≤ 64 ∧ 0 < fmt.bps ∧ fmt.bps ≤ 8
  | .newAudio2 fmt n srcs _ => fmt.audio = true ∧ 0 < n ∧ n ≤ SAMPLES ∧ 0 < fmt.numPlanes ∧
      fmt.numPlanes ≤ 64 ∧ 0 < fmt.bps ∧ fmt.bps ≤ 8 ∧ srcs.length = fmt.numPlanes ∧
      ∀ src ∈ srcs, s.LegalChannel fmt n.toNat src
  | .copyFrame g => (s.frames.get g).isSome
  | .addRef g => (s.frames.get g).isSome
  | .freeFrame g => (s.frames.get g).isSome
  | .getWritePtr g _ => (s.frames.get g).isSome
  | .store a _ => ∃ t f p, s.tokens.find? (fun t => t.buf = a.buf) = some t ∧
      s.frames.get t.frame = some f ∧ f.planes[t.slot]? = some p ∧ a.off < p.size

/-- The start: no frames. -/
def World.start (thr limit align : Nat) (sys : List (Option Nat)) (rnd : List (List Nat)) : World :=
  ⟨⟨[], Memory.Mem.new thr limit, sys, rnd⟩, [], align⟩

/-- States of the model with the values a user expects, after any history of legal calls. -/
inductive Reach (thr limit align : Nat) (sys : List (Option Nat)) (rnd : List (List Nat)) :
    World → SWorld → Prop
  | start : Reach thr limit align sys rnd (World.start thr limit align sys rnd) ⟨[], [], align⟩
  | call {w w' : World} {s : SWorld} {op : Op} {out : Out} :
      Reach thr limit align sys rnd w s → s.Legal op → step w op = .ok (w', out) →
      Reach thr limit align sys rnd w' (s.next op out)

/-- Reading a byte in the world of values. -/
def SWorld.read (s : SWorld) (g : Nat) (p off : Nat) : Option Nat :=
  match s.frames.get g with
  | none => none
  | some f =>
    if f.fmt.audio = true then some (f.channel p off)
    else (f.planes[p]?).map (fun q => q.bytes off)

/-- The size of the data behind a plane or channel pointer. -/
def SFrame.room (f : SFrame) (p : Nat) : Nat :=
  match f.planes[f.slot p]? with
  | none => 0
  | some q => q.size - (if f.fmt.audio = true then p * f.stride else 0)

/-- A plane buffer in use: a live frame refers to it. -/
def InUse (w : World) (b : Memory.Buf) : Prop :=
  ∃ (g : Nat) (f : Frame) (k id : Nat) (p : Plane), w.frames.get g = some f ∧ f.data[k]? = some id ∧
    w.ps.planes.get id = some p ∧ b = ⟨p.buf, p.size⟩

/-- Sources have the sample size of the new frame. -/
def SWorld.SameDepth (s : SWorld) : Op → Prop
  | .newVideo2 fmt _ _ srcs _ => ∀ g p, some (g, p) ∈ srcs → ∀ f, s.frames.get g = some f →
      f.fmt.bps = fmt.bps
  | _ => True

/-- Histories in which planes are only shared between frames with the same sample size. -/
inductive ReachD (thr limit align : Nat) (sys : List (Option Nat)) (rnd : List (List Nat)) :
    World → SWorld → Prop
  | start : ReachD thr limit align sys rnd (World.start thr limit align sys rnd) ⟨[], [], align⟩
  | call {w w' : World} {s : SWorld} {op : Op} {out : Out} :
      ReachD thr limit align sys rnd w s → s.Legal op → s.SameDepth op →
      step w op = .ok (w', out) → ReachD thr limit align sys rnd w' (s.next op out)

/-- A source plane that may be wrong, but names a live video frame. -/
def SWorld.LiveSrc (s : SWorld) (fmt : Fmt) (width height i : Nat) : Src → Prop
  | none => videoSize s.align fmt width height i < 9223372036854775808
  | some (g, _) => ∃ f, s.frames.get g = some f ∧ f.fmt.audio = false

end VS.Frame
