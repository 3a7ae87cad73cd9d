import Verif.Wave.Model
import Verif.Json.Model
import Verif.Format.Model

/-!
# Video output of vspipe

`src/vspipe/vspipe.cpp`: what is written for video frames, the y4m header and the timecodes.  That frames come in order
and what happens when writing fails is in `Verif/Pipe`.
-/

namespace VS.Video
open VS VS.Format VS.Wave

/-- One plane of a frame: dimensions in samples, distance of rows in bytes, memory from the read pointer on. -/
structure Plane where
  width : Nat
  height : Nat
  stride : Nat
  mem : List Nat

/-- The loop of `bitblt`, include/VSHelper4.h:190-197, with `n` rows left. -/
def bitbltLoop (src : List Nat) (srcStride dstStride row : Nat) : Nat → Nat → Nat → List Nat → Res (List Nat)
  | 0, _, _, dst => .ok dst
  | n + 1, s, d, dst => do
    let l ← load src s row
    let dst ← store dst d l
    bitbltLoop src srcStride dstStride row n (s + srcStride) (d + dstStride) dst

/-- `bitblt`, include/VSHelper4.h:185-200. -/
def bitblt (dst : List Nat) (dstStride : Nat) (src : List Nat) (srcStride row height : Nat) : Res (List Nat) :=
  if height ≠ 0 then
    if srcStride = dstStride ∧ srcStride = row then do
      let l ← load src 0 (row * height)
      store dst 0 l
    else bitbltLoop src srcStride dstStride row height 0 0 dst
  else .ok dst

/-- One plane, vspipe.cpp:240-251: the buffer afterwards and the bytes written. -/
def outputPlane (bytes : Nat) (p : Plane) (buf : List Nat) : Res (List Nat × List Nat) :=
  let row := p.width * bytes
  if row ≠ p.stride then do
    let buf ← bitblt buf row p.mem p.stride row p.height
    let l ← load buf 0 (row * p.height)
    .ok (buf, l)
  else do
    let l ← load p.mem 0 (row * p.height)
    .ok (buf, l)

/-- `rgbRemap`, vspipe.cpp:237, 239. -/
def remap (colorFamily : Int) (rp : Nat) : Nat :=
  if colorFamily = cfRGB then (if rp = 0 then 1 else if rp = 1 then 2 else 0) else rp

/-- The loop over the planes, vspipe.cpp:238-258, with `n` planes left. -/
def outputPlanes (f : VFmt) (planes : List Plane) : Nat → Nat → List Nat → Res (List Nat × List Nat)
  | 0, _, buf => .ok (buf, [])
  | n + 1, rp, buf =>
    match planes[remap f.colorFamily rp]? with
    | none => .ub
    | some p => do
      let a ← outputPlane f.bytesPerSample.toNat p buf
      let b ← outputPlanes f planes n (rp + 1) a.1
      .ok (b.1, a.2 ++ b.2)

/-- The video part of `outputFrame`, vspipe.cpp:233-258. -/
def outputFrame (f : VFmt) (planes : List Plane) (buf : List Nat) : Res (List Nat × List Nat) :=
  outputPlanes f planes f.numPlanes.toNat 0 buf

/-- The frames of the output with their alpha frames, vspipe.cpp:349-362. -/
def outputFrames (y4m : Bool) (f af : VFmt) : List (List Plane × Option (List Plane)) → List Nat → Res (List Nat)
  | [], _ => .ok []
  | (p, none) :: t, buf => do
    let a ← outputFrame f p buf
    let r ← outputFrames y4m f af t a.1
    .ok ((if y4m then Json.asc "FRAME\n" else []) ++ a.2 ++ r)
  | (p, some q) :: t, buf => do
    let a ← outputFrame f p buf
    let b ← outputFrame af q a.1
    let r ← outputFrames y4m f af t b.1
    .ok ((if y4m then Json.asc "FRAME\n" else []) ++ a.2 ++ b.2 ++ r)

/-! ## The y4m header -/

/-- `floatBitsToLetter`, vspipe.cpp:439-451. -/
def floatBitsToLetter (bits : Int) : List Nat :=
  if bits = 16 then Json.asc "h" else if bits = 32 then Json.asc "s" else if bits = 64 then Json.asc "d" else Json.asc "u"

/-- The identifiers of the subsamplings, vspipe.cpp:476-491. -/
def subName (w h : Int) : Option (List Nat) :=
  if w = 1 ∧ h = 1 then some (Json.asc "420")
  else if w = 1 ∧ h = 0 then some (Json.asc "422")
  else if w = 0 ∧ h = 0 then some (Json.asc "444")
  else if w = 2 ∧ h = 2 then some (Json.asc "410")
  else if w = 2 ∧ h = 0 then some (Json.asc "411")
  else if w = 0 ∧ h = 1 then some (Json.asc "440")
  else none

/-- `y4mFormat`, vspipe.cpp:468-498; `none`: refused. -/
def y4mFormat (f : VFmt) : Option (List Nat) :=
  if f.colorFamily = cfGray then
    some (Json.asc "mono" ++ if f.bitsPerSample > 8 then Json.decimal f.bitsPerSample else [])
  else if f.colorFamily = cfYUV then
    match subName f.subSamplingW f.subSamplingH with
    | none => none
    | some s =>
      if f.bitsPerSample > 8 ∧ f.sampleType = stInteger then some (s ++ Json.asc "p" ++ Json.decimal f.bitsPerSample)
      else if f.sampleType = stFloat then some (s ++ Json.asc "p" ++ floatBitsToLetter f.bitsPerSample)
      else some s
  else none

/-- The header, vspipe.cpp:500-508. -/
def y4mHeader (vi : VInfo) : Option (List Nat) :=
  match y4mFormat vi.format with
  | none => none
  | some c =>
    let c := if c.isEmpty then c else Json.asc " C" ++ c
    some (Json.asc "YUV4MPEG2" ++ c ++ Json.asc " W" ++ Json.decimal vi.width ++ Json.asc " H" ++ Json.decimal vi.height ++
      Json.asc " F" ++ Json.decimal vi.fpsNum ++ Json.asc ":" ++ Json.decimal vi.fpsDen ++ Json.asc " Ip A0:0" ++
      Json.asc " XLENGTH=" ++ Json.decimal vi.numFrames ++ Json.asc "\n")

/-- `initializeVideoOutput`, vspipe.cpp:453-534: the header written, or failure; `alpha`: there is an alpha clip. -/
def header (y4m alpha : Bool) (vi : VInfo) : Option (List Nat) :=
  if y4m ∧ ((vi.format.colorFamily ≠ cfGray ∧ vi.format.colorFamily ≠ cfYUV) ∨ alpha) then none
  else if y4m then y4mHeader vi
  else some []

/-- The buffer, vspipe.cpp:532. -/
def buffer (vi : VInfo) : List Nat := List.replicate (vi.width.toNat * vi.height.toNat * vi.format.bytesPerSample.toNat) 0

/-- The whole output for a video clip when nothing fails; `none`: refused.  `avi` describes the alpha clip if there is
one. -/
def videoFile (y4m : Bool) (vi : VInfo) (avi : Option VInfo) (frames : List (List Plane × Option (List Plane))) :
    Res (Option (List Nat)) :=
  match header y4m avi.isSome vi with
  | none => .ok none
  | some hd => do
    let d ← outputFrames y4m vi.format (match avi with | some a => a.format | none => VFmt.zero) frames (buffer vi)
    .ok (some (hd ++ d))

/-! ## Timecodes -/

/-- `currentTimecode`: how often each duration occurred, ordered by duration, vspipe.cpp:156. -/
abbrev Counts := List ((Int × Int) × Int)

/-- `std::pair`'s order. -/
def pairLt (a b : Int × Int) : Bool := a.1 < b.1 || (a.1 == b.1 && a.2 < b.2)

/-- `++currentTimecode[key]`, vspipe.cpp:390. -/
def bump (key : Int × Int) : Counts → Counts
  | [] => [(key, 1)]
  | (k, c) :: t =>
    if k = key then (k, c + 1) :: t
    else if pairLt key k then (key, 1) :: (k, c) :: t
    else (k, c) :: bump key t

/-- One term of the sum: `rnd` is the rounding to a double. -/
def term (rnd : Rat → Rat) (e : (Int × Int) × Int) : Rat := rnd (rnd e.2 * rnd (rnd e.1.1 / rnd e.1.2))

/-- `getCurrentTimecode`, vspipe.cpp:157-162. -/
def currentTimecode (rnd : Rat → Rat) (c : Counts) : Rat := c.foldl (fun sum e => rnd (sum + term rnd e)) 0

/-- The timecodes file, vspipe.cpp:364-393, when writing succeeds: for each frame `_DurationNum` and `_DurationDen`
(`none` if there is none); the numbers written and whether an error ended the output. -/
def timecodes (rnd : Rat → Rat) : List (Option Int × Option Int) → Counts → List Rat × Bool
  | [], _ => ([], false)
  | (num, den) :: t, c =>
    let line := rnd (currentTimecode rnd c * 1000)
    match num, den with
    | some num, some den =>
      if den ≤ 0 ∨ num ≤ 0 then ([line], true)
      else
        let r := timecodes rnd t (bump (num, den) c)
        (line :: r.1, r.2)
    | _, _ => ([line], true)

end VS.Video
