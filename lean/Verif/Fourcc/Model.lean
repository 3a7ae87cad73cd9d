import Verif.Video.Model

/-!
# Frames with four character codes

`src/common/fourcc.cpp`: how the video for windows module names formats, sizes buffers and arranges frames in them.
-/

namespace VS.Fourcc
open VS VS.Format VS.Wave VS.Video

/-- `p2p_packing` as far as used, fourcc.cpp:56-84; `planar` is `PLANAR`, fourcc.cpp:37. -/
inductive Packing where
  | planar | argb32le | rgb30be | argb64be | yuy2 | uyvy | p010le | p012le | p016le | p210le | v210le | p212le | p216le
  | y410le | y416le
  deriving DecidableEq, Repr

/-- `Traits`, fourcc.cpp:39-54; the three flags of lines 34-36 are fields of their own. -/
structure Traits where
  colorFamily : Int
  sampleType : Int
  bits : Int
  subW : Int
  subH : Int
  alt : Int
  name : String
  packing : Packing
  num : Int
  den : Int := 1
  bitCount : Int := 0
  upsideDown : Bool := false
  swapUV : Bool := false
  nv : Bool := false
  alignment : Int := 1
  deriving DecidableEq, Repr

/-- `cfPackedRGB`, `cfPackedYUV`, fourcc.cpp:31-32. -/
def cfPackedRGB : Int := -cfRGB
def cfPackedYUV : Int := -cfYUV

/-- `fourcc_traits`, fourcc.cpp:56-84. -/
def table : List Traits := [
  { colorFamily := cfRGB, sampleType := stInteger, bits := 8, subW := 0, subH := 0, alt := 0, name := "DIB ", packing := .argb32le, num := 4, bitCount := 32, upsideDown := true },
  { colorFamily := cfRGB, sampleType := stInteger, bits := 10, subW := 0, subH := 0, alt := 0, name := "r210", packing := .rgb30be, num := 4, bitCount := 30, alignment := 256 },
  { colorFamily := cfRGB, sampleType := stInteger, bits := 16, subW := 0, subH := 0, alt := 0, name := "b64a", packing := .argb64be, num := 8, bitCount := 64 },
  { colorFamily := cfYUV, sampleType := stInteger, bits := 8, subW := 1, subH := 1, alt := 0, name := "YV12", packing := .planar, num := 1 },
  { colorFamily := cfYUV, sampleType := stInteger, bits := 8, subW := 1, subH := 1, alt := 1, name := "I420", packing := .planar, num := 1, swapUV := true },
  { colorFamily := cfYUV, sampleType := stInteger, bits := 8, subW := 1, subH := 1, alt := 2, name := "IYUV", packing := .planar, num := 1, swapUV := true },
  { colorFamily := cfGray, sampleType := stInteger, bits := 8, subW := 0, subH := 0, alt := 0, name := "Y800", packing := .planar, num := 1 },
  { colorFamily := cfYUV, sampleType := stInteger, bits := 8, subW := 0, subH := 0, alt := 0, name := "YV24", packing := .planar, num := 1 },
  { colorFamily := cfYUV, sampleType := stInteger, bits := 8, subW := 1, subH := 0, alt := 0, name := "YV16", packing := .planar, num := 1 },
  { colorFamily := cfYUV, sampleType := stInteger, bits := 8, subW := 2, subH := 0, alt := 0, name := "Y41B", packing := .planar, num := 1 },
  { colorFamily := cfYUV, sampleType := stInteger, bits := 8, subW := 1, subH := 0, alt := 1, name := "YUY2", packing := .yuy2, num := 2 },
  { colorFamily := cfYUV, sampleType := stInteger, bits := 8, subW := 1, subH := 0, alt := 2, name := "UYVY", packing := .uyvy, num := 2 },
  { colorFamily := cfYUV, sampleType := stInteger, bits := 8, subW := 2, subH := 2, alt := 0, name := "YVU9", packing := .planar, num := 1 },
  { colorFamily := cfYUV, sampleType := stInteger, bits := 10, subW := 1, subH := 1, alt := 0, name := "P010", packing := .p010le, num := 2, nv := true },
  { colorFamily := cfYUV, sampleType := stInteger, bits := 12, subW := 1, subH := 1, alt := 0, name := "P016", packing := .p012le, num := 2, nv := true },
  { colorFamily := cfYUV, sampleType := stInteger, bits := 16, subW := 1, subH := 1, alt := 0, name := "P016", packing := .p016le, num := 2, nv := true },
  { colorFamily := cfYUV, sampleType := stInteger, bits := 10, subW := 1, subH := 0, alt := 0, name := "P210", packing := .p210le, num := 2, nv := true },
  { colorFamily := cfYUV, sampleType := stInteger, bits := 10, subW := 1, subH := 0, alt := 1, name := "v210", packing := .v210le, num := 16, den := 6, bitCount := 20, alignment := 128 },
  { colorFamily := cfYUV, sampleType := stInteger, bits := 12, subW := 1, subH := 0, alt := 0, name := "P216", packing := .p212le, num := 2, nv := true },
  { colorFamily := cfYUV, sampleType := stInteger, bits := 16, subW := 1, subH := 0, alt := 0, name := "P216", packing := .p216le, num := 2, nv := true },
  { colorFamily := cfYUV, sampleType := stInteger, bits := 10, subW := 0, subH := 0, alt := 0, name := "Y410", packing := .y410le, num := 4, bitCount := 32 },
  { colorFamily := cfYUV, sampleType := stInteger, bits := 16, subW := 0, subH := 0, alt := 0, name := "Y416", packing := .y416le, num := 8, bitCount := 64 },
  { colorFamily := cfPackedRGB, sampleType := stInteger, bits := 24, subW := 0, subH := 0, alt := 0, name := "DIB ", packing := .planar, num := 3, bitCount := 24, alignment := 4 },
  { colorFamily := cfPackedRGB, sampleType := stInteger, bits := 32, subW := 0, subH := 0, alt := 0, name := "DIB ", packing := .planar, num := 4, bitCount := 32, alignment := 4 },
  { colorFamily := cfPackedYUV, sampleType := stInteger, bits := 16, subW := 1, subH := 0, alt := 0, name := "YUY2", packing := .planar, num := 2, bitCount := 16 }]

/-- `find_traits`, fourcc.cpp:86-96. -/
def findTraits (f : VFmt) (alt : Int) : Option Traits :=
  table.find? fun t => t.colorFamily == f.colorFamily && t.sampleType == f.sampleType && t.bits == f.bitsPerSample &&
    t.subW == f.subSamplingW && t.subH == f.subSamplingH && t.alt == alt

/-- A character constant of four characters: the first one is the most significant byte, as the usual compilers have
it. -/
def charConst (s : String) : Nat := (Json.asc s).foldl (fun a c => a * 256 + c) 0

/-- `VS_FCC`, fourcc.h:26-29: the four bytes in reverse order. -/
def fcc (s : String) : Nat :=
  let c := charConst s
  c % 256 * 2 ^ 24 + c / 256 % 256 * 2 ^ 16 + c / 2 ^ 16 % 256 * 2 ^ 8 + c / 2 ^ 24 % 256

/-- `GetFourCC`, fourcc.cpp:100-104. -/
def getFourCC (f : VFmt) (alt : Int) : Bool × Nat :=
  match findTraits f alt with
  | some t => (true, fcc t.name)
  | none => (false, fcc "UNKN")

/-- `GetBiCompression`, fourcc.cpp:106-111. -/
def getBiCompression (f : VFmt) (alt : Int) : Bool × Nat :=
  let r := getFourCC f alt
  if r.1 ∧ r.2 = fcc "DIB " then (true, 0) else r

/-- `HasSupportedFourCC`, fourcc.cpp:179-182. -/
def hasSupportedFourCC (f : VFmt) : Bool := (getFourCC f 0).1

/-- `NeedsPacking`, fourcc.cpp:184-187. -/
def needsPacking (f : VFmt) (alt : Int) : Bool :=
  match findTraits f alt with
  | some t => t.packing ≠ .planar || t.upsideDown
  | none => false

/-- `NeedsUVSwap`, fourcc.cpp:190-193. -/
def needsUVSwap (f : VFmt) (alt : Int) : Bool :=
  match findTraits f alt with
  | some t => t.swapUV
  | none => false

/-- `>>` for numbers that are not negative. -/
def shr (x s : Int) : Int := x / 2 ^ s.toNat

/-- `RowSizeAligned`, fourcc.cpp:113-115. -/
def rowSizeAligned (rowsize alignment : Int) : Res Int :=
  if rowsize.tmod alignment ≠ 0 then i32 (rowsize + (alignment - rowsize.tmod alignment)) else .ok rowsize

/-- `traits ? traits->alignment : 1`, fourcc.cpp:118. -/
def alignmentOf : Option Traits → Int
  | some t => t.alignment
  | none => 1

/-- `RowSizePlanar`, fourcc.cpp:117-120. -/
def rowSizePlanar (width bytes : Int) (t : Option Traits) : Res Int := do
  let r ← i32 (width * bytes)
  rowSizeAligned r (alignmentOf t)

/-- Conversion from `unsigned` to `int`. -/
def toSigned (x : Int) : Int := if x < 2 ^ 31 then x else x - 2 ^ 32

/-- `RowSizeInterleaved`, fourcc.cpp:122-126: the product is one of `unsigned`. -/
def rowSizeInterleaved (width : Int) (t : Traits) : Res Int :=
  rowSizeAligned (toSigned ((width * t.num + (t.den - 1)) % 2 ^ 32 / t.den)) t.alignment

/-- The three `assert`s, fourcc.cpp:140-142, 149-151. -/
def asserts (vi : VInfo) : Res Unit :=
  if vi.format.numPlanes = 3 ∧ vi.width % 2 ^ vi.format.subSamplingW.toNat = 0 ∧ vi.height % 2 ^ vi.format.subSamplingH.toNat = 0
  then .ok () else .fatal "assert"

/-- `BMPSize`, fourcc.cpp:128-163, for a pointer that is not null. -/
def bmpSize (vi : VInfo) (alt : Int) : Res Int :=
  let f := vi.format
  let planar (t : Option Traits) : Res Int := do
    let lr ← rowSizePlanar vi.width f.bytesPerSample t
    let ls ← i32 (lr * vi.height)
    if f.colorFamily = cfGray ∨ f.colorFamily = cfPackedRGB ∨ f.colorFamily = cfPackedYUV then .ok ls
    else do
      asserts vi
      let cr ← rowSizePlanar (shr vi.width f.subSamplingW) f.bytesPerSample t
      let cs ← i32 (cr * shr vi.height f.subSamplingH)
      let two ← i32 (cs * 2)
      i32 (ls + two)
  match findTraits f alt with
  | none => planar none
  | some t =>
    if t.packing = .planar then planar (some t)
    else if t.nv then do
      asserts vi
      let lr ← rowSizePlanar vi.width f.bytesPerSample (some t)
      let ls ← i32 (lr * vi.height)
      let w2 ← i32 (shr vi.width f.subSamplingW * 2)
      let cr ← rowSizePlanar w2 f.bytesPerSample (some t)
      let cs ← i32 (cr * shr vi.height f.subSamplingH)
      i32 (ls + cs)
    else do
      let r ← rowSizeInterleaved vi.width t
      i32 (r * vi.height)

/-- `BitsPerPixel`, fourcc.cpp:165-177. -/
def bitsPerPixel (f : VFmt) (alt : Int) : Int :=
  match findTraits f alt with
  | none => 0
  | some t =>
    if t.bitCount ≠ 0 then t.bitCount
    else
      let bits := f.bytesPerSample * 8
      bits + shr (bits * 2) (f.subSamplingW + f.subSamplingH)

/-- The loop of `bitblt`, include/VSHelper4.h:190-197, with `n` rows left and a stride of the destination that may be
negative. -/
def blt (src : List Nat) (srcStride row : Nat) (dstStride : Int) : Nat → Nat → Int → List Nat → Res (List Nat)
  | 0, _, _, dst => .ok dst
  | n + 1, s, d, dst => do
    let l ← load src s row
    let dst ← if d < 0 then .ub else store dst d.toNat l
    blt src srcStride row dstStride n (s + srcStride) (d + dstStride) dst

/-- `bitblt`, include/VSHelper4.h:185-200, to offset `d` of the buffer. -/
def bitbltAt (dst : List Nat) (d dstStride : Int) (src : List Nat) (srcStride row height : Nat) : Res (List Nat) :=
  if height ≠ 0 then
    if (srcStride : Int) = dstStride ∧ srcStride = row then do
      let l ← load src 0 (row * height)
      if d < 0 then .ub else store dst d.toNat l
    else blt src srcStride row dstStride height 0 d dst
  else .ok dst

/-- `planeOrder`, fourcc.cpp:200-202. -/
def order (t : Option Traits) : List Nat :=
  match t with
  | some t => if t.swapUV then [0, 1, 2] else [0, 2, 1]
  | none => [0, 2, 1]

/-- Is the picture turned upside down?  fourcc.cpp:214. -/
def flipped : Option Traits → Bool
  | some t => t.upsideDown
  | none => false

/-- The loop over the planes, fourcc.cpp:204-221, for the planes `l` that are left; `off` is `dst`. -/
def packPlanes (f : VFmt) (t : Option Traits) (planes : List Plane) (width height : Int) : List Nat → Int → List Nat → Res (List Nat)
  | [], _, buf => .ok buf
  | i :: l, off, buf =>
    let sw := if i = 1 ∨ i = 2 then f.subSamplingW else 0
    let sh := if i = 1 ∨ i = 2 then f.subSamplingH else 0
    match planes[i]? with
    | none => .ub
    | some p => do
      let row ← rowSizePlanar (shr width sw) f.bytesPerSample t
      let start ← if flipped t then i32 (row * (shr height sh - 1)) else .ok 0
      let bytes ← i32 (shr width sw * f.bytesPerSample)
      let buf ← bitbltAt buf (off + start) (if flipped t then -row else row) p.mem p.stride bytes.toNat (shr height sh).toNat
      let step ← i32 (row * shr height sh)
      packPlanes f t planes width height l (off + step) buf

/-- `p2p_buffer_param`: where `p2p_pack_frame` writes, as offsets in the buffer, and the strides; fourcc.cpp:223-257. -/
structure Param where
  packing : Packing
  width : Int
  height : Int
  dst0 : Int
  stride0 : Int
  second : Option (Int × Int)
  deriving DecidableEq, Repr

/-- What is done with the frame: planes are copied to the buffer, or libp2p is called. -/
inductive Out where
  | copied (buf : List Nat)
  | packed (p : Param)
  deriving DecidableEq, Repr

/-- Turning upside down, fourcc.cpp:245-257: start and stride of a plane of the given height. -/
def turn (up : Bool) (height : Int) (x : Int × Int) : Res (Int × Int) :=
  if up then (if x.2 > 0 then .ok (x.1 + (height - 1) * x.2, -x.2) else .fatal "assert") else .ok x

/-- The parameters for libp2p, fourcc.cpp:223-257; the source pointers are those of the planes. -/
def param (f : VFmt) (t : Traits) (width height : Int) : Res Param := do
  if t.swapUV then .fatal "assert"
  else if t.nv then do
    let s0 ← rowSizePlanar width f.bytesPerSample (some t)
    let w2 ← i32 (shr width f.subSamplingW * 2)
    let s1 ← rowSizePlanar w2 f.bytesPerSample (some t)
    let a ← turn t.upsideDown height (0, s0)
    let b ← turn t.upsideDown (shr height f.subSamplingH) (s0 * height, s1)
    .ok ⟨t.packing, width, height, a.1, a.2, some b⟩
  else do
    let s0 ← rowSizeInterleaved width t
    let a ← turn t.upsideDown height (0, s0)
    .ok ⟨t.packing, width, height, a.1, a.2, none⟩

/-- `PackOutputFrame`, fourcc.cpp:195-261. -/
def packOutputFrame (planes : List Plane) (buf : List Nat) (width height : Int) (f : VFmt) (alt : Int) : Res Out :=
  let planar (t : Option Traits) : Res Out := do
    let b ← packPlanes f t planes width height ((order t).take f.numPlanes.toNat) 0 buf
    .ok (.copied b)
  match findTraits f alt with
  | none => planar none
  | some t =>
    if t.packing = .planar then planar (some t)
    else do
      let p ← param f t width height
      .ok (.packed p)

end VS.Fourcc
