import Verif.Video.Model

/-!
# What the video output is
-/

namespace VS.Video
open VS VS.Format

/-- The rows of a plane without what is between them. -/
def image (bytes : Nat) (p : Plane) : List Nat :=
  (List.range p.height).flatMap fun y => (p.mem.drop (y * p.stride)).take (p.width * bytes)

/-- The planes in the order in which they are written: R, G, B as G, B, R. -/
def ordered (rgb : Bool) (planes : List Plane) : List Plane :=
  match rgb, planes with
  | true, [r, g, b] => [g, b, r]
  | _, l => l

/-- A picture: all planes, one after the other. -/
def picture (f : VFmt) (planes : List Plane) : List Nat :=
  (ordered (f.colorFamily == cfRGB) planes).flatMap (image f.bytesPerSample.toNat)

/-- Dimensions of plane `i`: the planes after the first one are subsampled (C43). -/
def planeWidth (vi : VInfo) (i : Nat) : Nat := if i = 0 then vi.width.toNat else vi.width.toNat / 2 ^ vi.format.subSamplingW.toNat
def planeHeight (vi : VInfo) (i : Nat) : Nat := if i = 0 then vi.height.toNat else vi.height.toNat / 2 ^ vi.format.subSamplingH.toNat

/-- A frame of a clip: the right number of planes with the right dimensions, rows at least as far apart as they are
long, memory for all of them. -/
structure FrameOk (vi : VInfo) (planes : List Plane) : Prop where
  count : planes.length = vi.format.numPlanes.toNat
  width : ∀ i p, planes[i]? = some p → p.width = planeWidth vi i
  height : ∀ i p, planes[i]? = some p → p.height = planeHeight vi i
  stride : ∀ p ∈ planes, p.width * vi.format.bytesPerSample.toNat ≤ p.stride
  mem : ∀ p ∈ planes, p.stride * p.height ≤ p.mem.length

/-- A clip of constant format and dimensions. -/
structure ClipOk (vi : VInfo) : Prop where
  valid : isValidVideoInfo vi = .ok true
  format : vi.format.colorFamily ≠ cfUndefined
  width : 0 < vi.width
  height : 0 < vi.height

/-- An alpha clip: same dimensions, gray, same kind of samples; src/cython/vapoursynth.pyx:2423-2434. -/
structure AlphaOk (vi avi : VInfo) : Prop where
  clip : ClipOk avi
  width : avi.width = vi.width
  height : avi.height = vi.height
  gray : avi.format.colorFamily = cfGray
  type : avi.format.sampleType = vi.format.sampleType
  bits : avi.format.bitsPerSample = vi.format.bitsPerSample

/-- A frame of the output, with an alpha frame if there is an alpha clip. -/
def PairOk (vi : VInfo) (avi : Option VInfo) (x : List Plane × Option (List Plane)) : Prop :=
  FrameOk vi x.1 ∧
    match avi, x.2 with
    | some a, some q => FrameOk a q
    | none, none => True
    | _, _ => False

/-- The frames of the output. -/
def FramesOk (vi : VInfo) (avi : Option VInfo) (frames : List (List Plane × Option (List Plane))) : Prop :=
  (frames.length : Int) = vi.numFrames ∧ ∀ x ∈ frames, PairOk vi avi x

/-- The picture of a frame followed by that of its alpha frame. -/
def pictures (vi : VInfo) (avi : Option VInfo) (x : List Plane × Option (List Plane)) : List Nat :=
  picture vi.format x.1 ++
    match avi, x.2 with
    | some a, some q => picture a.format q
    | _, _ => []

/-! ## A reader for y4m files -/

/-- What a y4m header says. -/
structure Y4m where
  gray : Bool
  subW : Nat
  subH : Nat
  bits : Nat
  float : Bool
  width : Nat
  height : Nat
  num : Nat
  den : Nat
  frames : Nat
  deriving DecidableEq

def text (s : String) : List Nat := s.toList.map Char.toNat

/-- Parts between separators. -/
def split (sep : Nat) : List Nat → List (List Nat)
  | [] => [[]]
  | x :: t =>
    if x = sep then [] :: split sep t
    else match split sep t with
      | a :: r => (x :: a) :: r
      | [] => [[x]]

def isDigit (c : Nat) : Bool := 48 ≤ c && c ≤ 57

/-- A decimal number. -/
def number (l : List Nat) : Option Nat :=
  if l ≠ [] ∧ l.all isDigit then some (l.foldl (fun a c => a * 10 + (c - 48)) 0) else none

def sub (l : List Nat) : Option (Nat × Nat) :=
  if l = text "420" then some (1, 1)
  else if l = text "422" then some (1, 0)
  else if l = text "444" then some (0, 0)
  else if l = text "410" then some (2, 2)
  else if l = text "411" then some (2, 0)
  else if l = text "440" then some (0, 1)
  else none

/-- Bits for each sample and whether samples are floating point numbers. -/
def depth (l : List Nat) : Option (Nat × Bool) :=
  if l = [] then some (8, false)
  else if l = text "ph" then some (16, true)
  else if l = text "ps" then some (32, true)
  else if l.head? = some 112 then (number l.tail).map (·, false)
  else none

/-- Colour space. -/
def colour (l : List Nat) : Option (Bool × (Nat × Nat) × (Nat × Bool)) :=
  if l.take 4 = text "mono" then
    if l.drop 4 = [] then some (true, (0, 0), (8, false)) else (number (l.drop 4)).map fun b => (true, (0, 0), (b, false))
  else do
    let s ← sub (l.take 3)
    let d ← depth (l.drop 3)
    some (false, s, d)

/-- The value of the field with this letter. -/
def field (toks : List (List Nat)) (c : Nat) : Option (List Nat) := (toks.find? fun t => t.head? = some c).map List.tail

/-- A rate. -/
def rate (l : List Nat) : Option (Nat × Nat) :=
  match split 58 l with
  | [a, b] => do
    let a ← number a
    let b ← number b
    some (a, b)
  | _ => none

/-- The number of frames, in the extension field used by VapourSynth. -/
def frameCount (l : List Nat) : Option Nat := if l.take 7 = text "LENGTH=" then number (l.drop 7) else none

/-- The header line. -/
def readHeader (line : List Nat) : Option Y4m :=
  match split 32 line with
  | magic :: toks =>
    if magic = text "YUV4MPEG2" then do
      let c ← colour (← field toks 67)
      let w ← number (← field toks 87)
      let h ← number (← field toks 72)
      let r ← rate (← field toks 70)
      let n ← frameCount (← field toks 88)
      some ⟨c.1, c.2.1.1, c.2.1.2, c.2.2.1, c.2.2.2, w, h, r.1, r.2, n⟩
    else none
  | [] => none

/-- Bytes for each sample. -/
def sampleBytes (bits : Nat) : Nat := if bits ≤ 8 then 1 else if bits ≤ 16 then 2 else 4

/-- Bytes for each frame: one plane, or one and two subsampled ones. -/
def frameSize (y : Y4m) : Nat :=
  (y.width * y.height + if y.gray then 0 else 2 * (y.width / 2 ^ y.subW * (y.height / 2 ^ y.subH))) * sampleBytes y.bits

/-- Frames of a fixed size after markers. -/
def readFrames (size : Nat) : Nat → List Nat → Option (List (List Nat))
  | 0, t => if t = [] then some [] else none
  | n + 1, t =>
    if t = [] then some []
    else if t.take 6 = text "FRAME\n" ∧ size ≤ (t.drop 6).length then
      (readFrames size n ((t.drop 6).drop size)).map (((t.drop 6).take size) :: ·)
    else none

/-- The file. -/
def readY4m (t : List Nat) : Option (Y4m × List (List Nat)) := do
  let y ← readHeader (t.takeWhile (· ≠ 10))
  let f ← readFrames (frameSize y) t.length ((t.dropWhile (· ≠ 10)).drop 1)
  some (y, f)

/-- What the header of a clip has to say. -/
def describe (vi : VInfo) : Y4m :=
  ⟨vi.format.colorFamily == cfGray, vi.format.subSamplingW.toNat, vi.format.subSamplingH.toNat, vi.format.bitsPerSample.toNat,
    vi.format.sampleType == stFloat, vi.width.toNat, vi.height.toNat, vi.fpsNum.toNat, vi.fpsDen.toNat, vi.numFrames.toNat⟩

/-- The subsamplings that have a name. -/
def Named (vi : VInfo) : Prop :=
  (vi.format.subSamplingW, vi.format.subSamplingH) ∈ [((0 : Int), (0 : Int)), (0, 1), (1, 0), (1, 1), (2, 0), (2, 2)]

end VS.Video
