import Verif.Pix.Model

/-!
# Filters that compute pixels

What the filters that compute new pixels have in common: reading and writing samples of one, two or four bytes, the two
loops over rows and columns, frames that take some planes from another frame, and the argument `planes`.

The loops are those of the plain C++ kernels; the SSE2, AVX2 and AVX-512 versions are not modelled.
-/

namespace VS.Point
open VS VS.Format VS.Map VS.Map.Spec VS.Pix

/-- The number in `n` bytes of memory, lowest byte first. -/
def leVal : Nat → (Nat → Nat) → Nat
  | 0, _ => 0
  | n + 1, f => f 0 % 256 + 256 * leVal n (fun k => f (k + 1))

/-- Read the sample of `n` bytes at the address `off`. -/
def rd (b : Buf) (n : Nat) (off : Int) : Res Nat :=
  if 0 ≤ off ∧ off + n ≤ b.size then .ok (leVal n (fun k => b.byte (off.toNat + k))) else .ub

/-- Write the sample of `n` bytes at the address `off`; the value is truncated. -/
def wr (b : Buf) (n : Nat) (off : Int) (v : Nat) : Res Buf :=
  if 0 ≤ off ∧ off + n ≤ b.size then
    .ok ⟨b.size, fun i => if off ≤ i ∧ (i : Int) < off + n then leByte v ((i : Int) - off).toNat else b.byte i⟩
  else .ub

/-- The loops of a filter that computes the sample in column `x` and row `y` of a plane of `w` × `h` samples from memory
that it does not change. -/
def fill (g : Nat → Nat → Res Nat) (n stride w h : Nat) (dst : Buf) : Res Buf :=
  forN (fun y b => forN (fun x b => do
    let v ← g x y
    wr b n (y * stride + x * n : Nat) v) w b) h dst

/-- `newVideoFrame2`, src/core/vscore.cpp:210-253: planes without source are new. -/
def takePlanesOpt (al : Nat) (dst : Frm) (junk : Junk) : Nat → List (Option (Frm × Int)) → Res (List Buf)
  | _, [] => .ok []
  | i, none :: t => do
    let l ← takePlanesOpt al dst junk (i + 1) t
    .ok (⟨dst.stride al i * dst.h i, junk i⟩ :: l)
  | i, some (f, p) :: t => do
    let b ← takePlane dst i f p
    let l ← takePlanesOpt al dst junk (i + 1) t
    .ok (b :: l)

/-- `newVideoFrame2` with a source for some of the planes, src/core/vscore.cpp:210-253. -/
def newVideoFrameOpt (al : Nat) (fmt : VFmt) (width height : Int) (srcs : List (Option (Frm × Int))) (props : Dict)
    (junk : Junk) : Res Frm :=
  if width ≤ 0 ∨ height ≤ 0 then .fatal "Error in frame creation: dimensions are negative"
  else do
    let f : Frm := ⟨fmt, width.toNat, height.toNat, [], props⟩
    let l ← takePlanesOpt al f junk 0 (srcs.take fmt.numPlanes.toNat)
    .ok { f with planes := l }

/-- The loop of `getProcessPlanesArg`, src/core/filtershared.h:140-154. -/
def processLoop (name : String) : List Int → List Bool → Res (List Bool)
  | [], l => .ok l
  | o :: t, l =>
    if o < 0 ∨ o ≥ 3 then .err (name ++ ": plane index out of range")
    else if l.getD o.toNat false then .err (name ++ ": plane specified twice")
    else processLoop name t (l.set o.toNat true)

/-- `getProcessPlanesArg`, src/core/filtershared.h:134-157; `planes` are the elements of the argument, none if it is not
given. -/
def getProcessPlanesArg (name : String) (planes : List Int) : Res (List Bool) :=
  processLoop name planes (List.replicate 3 planes.isEmpty)

/-- `is8to16orFloatFormat` without variable formats, src/core/filtershared.h:159-168. -/
def is8to16orFloat (f : VFmt) : Bool :=
  if f.colorFamily = cfUndefined then false
  else if (f.sampleType = stInteger ∧ f.bitsPerSample > 16) ∨
      (f.sampleType = stFloat ∧ ¬ (f.bitsPerSample = 32 ∨ f.bitsPerSample = 16)) then false
  else true

/-- `isSameVideoInfo`, include/VSHelper4.h:103-105. -/
def isSameVideoInfo (a b : VInfo) : Bool :=
  decide (a.height = b.height ∧ a.width = b.width) && isSameVideoFormat a.format b.format

/-- `invalidVideoFormatMessage`, src/core/filtershared.h:170-187, without the name of the format. -/
def badFormat (name : String) : String := name ++ ": Input clip must be constant format 8..16 bit integer or 16-32 bit float"

/-- The kinds of samples with kernels of their own. -/
inductive Kind where
  | byte
  | word
  | single
  | half
  deriving DecidableEq

/-- Selection of a kernel by sample type and size, for instance src/core/mergefilters.cpp:353-360. -/
def kindOf (f : VFmt) : Option Kind :=
  if f.sampleType = stInteger ∧ f.bytesPerSample = 1 then some .byte
  else if f.sampleType = stInteger ∧ f.bytesPerSample = 2 then some .word
  else if f.sampleType = stFloat ∧ f.bytesPerSample = 4 then some .single
  else if f.sampleType = stFloat ∧ f.bytesPerSample = 2 then some .half
  else none

/-- The number of bytes that the kernel reads and writes. -/
def Kind.bytes : Kind → Nat
  | .byte => 1
  | .word => 2
  | .single => 4
  | .half => 2

end VS.Point
