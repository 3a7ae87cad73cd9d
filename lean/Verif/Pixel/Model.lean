import Verif.Point.Mem

/-!
# Filters on single samples

Model of the part of src/core/genericfilters.cpp with Invert, InvertMask, Limiter, Binarize and BinarizeMask.
-/

namespace VS.Pixel
open VS VS.Format VS.Map VS.Map.Spec VS.Pix VS.Point

/-- The absolute value. -/
def rabs (q : Rat) : Rat := if q < 0 then -q else q

/-- Floating point arithmetic on bit patterns: numbers of the argument lists are double precision, `Kind.single` and `Kind.half`
are the samples. -/
structure Floats where
  /-- the value of a finite double precision number -/
  value : Nat → Option Rat
  /-- the value of `x + .5`, if it is finite -/
  addHalf : Nat → Option Rat
  /-- conversion from double to single precision -/
  single : Nat → Nat
  /-- a single precision constant: -.5, 0, .5 or 1 -/
  const : Rat → Nat
  /-- `1 - x` -/
  oneMinus : Kind → Nat → Nat
  /-- `-x` in single precision -/
  negate : Nat → Nat
  /-- `std::min(max, std::max(min, x))` with the limits in single precision -/
  limit : Kind → Nat → Nat → Nat → Nat
  /-- `x < t` with `t` in single precision -/
  less : Kind → Nat → Nat → Bool
  /-- a single precision number as a sample -/
  store : Kind → Nat → Nat
  /-- the sum is rounded to the nearest double precision number -/
  half_close : ∀ b q, value b = some q → ∃ r, addHalf b = some r ∧
    rabs (r - (q + 1 / 2)) * 2 ^ 53 ≤ rabs (q + 1 / 2)
  half_none : ∀ b, value b = none → addHalf b = none

/-- `getPlanesArg`, src/core/filtershared.h:195-212, with the name of the filter in front of the message as
the create functions do it. -/
def getPlanesArg (name : String) (planes : List Int) : Res (List Bool) :=
  processLoop name (planes.map int64ToIntS) (List.replicate 3 planes.isEmpty)

/-- The kernel, genericfilters.cpp:196-203. -/
def pixKind (f : VFmt) : Option Kind :=
  if f.bytesPerSample = 1 then some .byte
  else if f.sampleType = stInteger ∧ f.bytesPerSample = 2 then some .word
  else if f.bytesPerSample = 2 then some .half
  else if f.bytesPerSample = 4 then some .single
  else none

/-- The rows of a plane, genericfilters.cpp:184-206. -/
def pixPlane (al : Nat) (op : Kind → VFmt → Nat → Nat → Nat) (src : Frm) (p : Nat) (b : Buf) : Res Buf := do
  let b1 ← src.plane p
  match pixKind src.fmt with
  | none => .ok b
  | some k => fill (fun x y => do
      let v ← rd b1 k.bytes (y * src.stride al p + x * k.bytes : Nat)
      .ok (op k src.fmt p v)) k.bytes (src.stride al p) (src.w p) (src.h p) b

/-- `singlePixelGetFrame`, genericfilters.cpp:162-217. -/
def pixFrame (al : Nat) (name : String) (op : Kind → VFmt → Nat → Nat → Nat) (process : List Bool) (src : Frm) (junk : Junk) : Res Frm :=
  if !is8to16orFloat src.fmt then .err (name ++ ": Input frame must be constant format 8..16 bit integer or 16-32 bit float")
  else do
    let srcs := [0, 1, 2].map fun p : Nat => if process.getD p false then none else some (src, (p : Int))
    let dst ← newVideoFrameOpt al src.fmt src.width src.height srcs src.props junk
    dst.build fun p b => if process.getD p false then pixPlane al op src p b else .ok b

/-- The filters. -/
def pixFilter (al : Nat) (name : String) (vi : VInfo) (op : Kind → VFmt → Nat → Nat → Nat) (process : List Bool) : PFilter :=
  ⟨vi, fun n => [(0, n)], fun n get junk => do
    let src ← get 0 n
    pixFrame al name op process src junk⟩

/-- `is8to16orFloatFormat` with variable formats, src/core/filtershared.h:159-168. -/
def okOrVariable (f : VFmt) : Bool :=
  if (f.sampleType = stInteger ∧ f.bitsPerSample > 16) ∨
      (f.sampleType = stFloat ∧ ¬ (f.bitsPerSample = 32 ∨ f.bitsPerSample = 16)) then false
  else true

/-! ## Invert -/

variable (F : Floats)

/-- `InvertOp`, genericfilters.cpp:1069-1104. -/
def invertOp (mask : Bool) (k : Kind) (f : VFmt) (p v : Nat) : Nat :=
  let uv := !mask && decide (f.colorFamily = cfYUV) && decide (p > 0)
  let mx := (2 ^ f.bitsPerSample.toNat - 1) % 65536
  match k with
  | .byte => mx % 256 - min v (mx % 256)
  | .word => mx - min v mx
  | .single => if uv then F.negate v else F.oneMinus .single v
  | .half => if uv then v ^^^ 0x8000 else F.oneMinus .half v

/-- `invertCreate`, genericfilters.cpp:1106-1120, and `templateInit`, 219-229. -/
def invertCreate (al : Nat) (vi : VInfo) (planes : List Int) (mask : Bool) : Res Created :=
  let name := if mask then "InvertMask" else "Invert"
  if !okOrVariable vi.format then .err (badFormat name)
  else do
    let process ← getPlanesArg name planes
    create (pixFilter al name vi (invertOp F mask) process)

/-! ## Limiter -/

/-- `RangeArgumentHandling`, genericfilters.cpp:49-53. -/
inductive Mode where
  | lower
  | upper
  | middle

/-- The default value, genericfilters.cpp:66-75. -/
def rangeDefault (f : VFmt) (mode : Mode) (uv : Bool) : Nat × Nat :=
  match mode with
  | .lower => (0, F.const (if uv then -1 / 2 else 0))
  | .upper => ((2 ^ f.bitsPerSample.toNat - 1) % 65536, F.const (if uv then 1 / 2 else 1))
  | .middle => ((2 ^ f.bitsPerSample.toNat / 2) % 65536, F.const (if uv then 0 else 1 / 2))

/-- Conversion of a floating point number to `int64_t`: the fraction is cut off; numbers out of range have no result. -/
def toI64 (q : Option Rat) : Res Int :=
  match q with
  | none => .ub
  | some q => if -2 ^ 63 - 1 < q ∧ q < 2 ^ 63 then .ok (q.num.tdiv q.den) else .ub

/-- A value that is given, genericfilters.cpp:77-86. -/
def rangeGiven (name arg : String) (f : VFmt) (b : Nat) : Res (Nat × Nat) :=
  if f.sampleType = stInteger then do
    let t ← toI64 (F.addHalf b)
    if t < 0 ∨ t > 2 ^ f.bitsPerSample.toNat - 1 then .err (name ++ ": " ++ arg ++ " out of range")
    else .ok (t.toNat % 65536, 0)
  else .ok (0, F.single b)

/-- The loop of `getPlanePixelRangeArgs`, genericfilters.cpp:57-88: `prev` are the values of the plane before, if one was given. -/
def rangeLoop (name arg : String) (f : VFmt) (mode : Mode) (mask : Bool) :
    Nat → Nat → Option (Nat × Nat) → List Nat → Res (List (Nat × Nat))
  | 0, _, _, _ => .ok []
  | k + 1, p, prev, [] => do
    let v := prev.getD (rangeDefault F f mode (!mask && decide (p > 0) && decide (f.colorFamily = cfYUV)))
    let l ← rangeLoop name arg f mode mask k (p + 1) prev []
    .ok (v :: l)
  | k + 1, p, _, b :: t => do
    let v ← rangeGiven F name arg f b
    let l ← rangeLoop name arg f mode mask k (p + 1) (some v) t
    .ok (v :: l)

/-- `getPlanePixelRangeArgs`, genericfilters.cpp:54-89. -/
def rangeArgs (name arg : String) (f : VFmt) (vals : List Nat) (mode : Mode) (mask : Bool) : Res (List (Nat × Nat)) :=
  if (vals.length : Int) > f.numPlanes then .err (name ++ ": " ++ arg ++ " has more values specified than there are planes")
  else rangeLoop F name arg f mode mask 3 0 none vals

/-- `LimitOp`, genericfilters.cpp:1134-1161. -/
def limitOp (lo hi : List (Nat × Nat)) (k : Kind) (_f : VFmt) (p v : Nat) : Nat :=
  let l := lo.getD p (0, 0)
  let h := hi.getD p (0, 0)
  match k with
  | .byte => min (h.1 % 256) (max (l.1 % 256) v)
  | .word => min h.1 (max l.1 v)
  | k => F.limit k l.2 h.2 v

/-- `minf > maxf`: `less` is the comparison of single precision numbers. -/
def wrongOrder (f : VFmt) (lo hi : List (Nat × Nat)) : Bool :=
  [0, 1, 2].any fun p =>
    let l := lo.getD p (0, 0)
    let h := hi.getD p (0, 0)
    (decide (f.sampleType = stInteger) && decide (l.1 > h.1)) || (decide (f.sampleType = stFloat) && F.less .single h.2 l.2)

/-- `limitCreate`, genericfilters.cpp:1163-1181. -/
def limitCreate (al : Nat) (vi : VInfo) (planes : List Int) (mn mx : List Nat) : Res Created :=
  if !is8to16orFloat vi.format then .err (badFormat "Limiter")
  else do
    let process ← getPlanesArg "Limiter" planes
    let lo ← rangeArgs F "Limiter" "min" vi.format mn .lower false
    let hi ← rangeArgs F "Limiter" "max" vi.format mx .upper false
    if wrongOrder F vi.format lo hi then .err "Limiter: min bigger than max"
    else create (pixFilter al "Limiter" vi (limitOp F lo hi) process)

/-! ## Binarize -/

/-- `BinarizeOp`, genericfilters.cpp:1195-1232. -/
def binarizeOp (v0 v1 thr : List (Nat × Nat)) (k : Kind) (_f : VFmt) (p v : Nat) : Nat :=
  let a := v0.getD p (0, 0)
  let b := v1.getD p (0, 0)
  let t := thr.getD p (0, 0)
  match k with
  | .byte => if v < t.1 then a.1 % 256 else b.1 % 256
  | .word => if v < t.1 then a.1 else b.1
  | k => if F.less k v t.2 then F.store k a.2 else F.store k b.2

/-- `binarizeCreate`, genericfilters.cpp:1234-1250. -/
def binarizeCreate (al : Nat) (vi : VInfo) (planes : List Int) (v0 v1 thr : List Nat) (mask : Bool) : Res Created :=
  let name := if mask then "BinarizeMask" else "Binarize"
  if !is8to16orFloat vi.format then .err (badFormat name)
  else do
    let process ← getPlanesArg name planes
    let a ← rangeArgs F name "v0" vi.format v0 .lower mask
    let b ← rangeArgs F name "v1" vi.format v1 .upper mask
    let t ← rangeArgs F name "threshold" vi.format thr .middle mask
    create (pixFilter al name vi (binarizeOp F a b t) process)

end VS.Pixel
