import Verif.Pixel.Model

/-!
# Filters on neighbourhoods

Model of the part of src/core/genericfilters.cpp with Minimum, Maximum, Median, Deflate, Inflate, Prewitt, Sobel and Convolution, and of
the plain C++ kernels in src/core/kernel/generic.cpp. The SSE2, AVX2, AVX-512 and NEON kernels are not modelled.
-/

namespace VS.Generic
open VS VS.Format VS.Map VS.Map.Spec VS.Pix VS.Point VS.Pixel

/-- The filters on 3 × 3 samples. -/
inductive Op where
  | prewitt
  | sobel
  | minimum
  | maximum
  | median
  | deflate
  | inflate
  deriving DecidableEq

/-- Floating point arithmetic. Arguments are bit patterns of double precision numbers. Single precision numbers are rational numbers
here, rounded by `rnd`; numbers too large for single precision are not cut off, as all integer results are limited anyway. -/
structure Floats where
  /-- the value of a finite double precision number -/
  value : Nat → Option Rat
  /-- the single precision number next to a number -/
  rnd : Rat → Rat
  /-- the relative error, and the absolute one of very small numbers -/
  rnd_close : ∀ q, rabs (rnd q - q) ≤ rabs q / 2 ^ 24 + 1 / 2 ^ 149
  /-- small integers are single precision numbers -/
  rnd_int : ∀ n : Int, n.natAbs ≤ 2 ^ 24 → rnd n = n
  /-- `std::sqrt(gx * gx + gy * gy)` in single precision, for integers below 2^24 -/
  root : Int → Int → Rat
  /-- a root is not negative -/
  root_nonneg : ∀ gx gy, 0 ≤ root gx gy
  /-- the products, the sum and the root are rounded -/
  root_close : ∀ gx gy, rabs (root gx gy * root gx gy - ((gx * gx + gy * gy : Int) : Rat)) ≤ ((gx * gx + gy * gy : Int) : Rat) / 2 ^ 21
  /-- a kernel for float samples: the filter, the threshold or scale, the stencil and the samples -/
  float3 : Op → Kind → Option Nat → Nat → List Nat → Nat
  /-- `a * r + b` in single precision, with two roundings or a single one -/
  muladd : Rat → Rat → Rat → Rat
  /-- the error of two roundings -/
  muladd_close : ∀ a r b, rabs (muladd a r b - (a * r + b)) ≤ (rabs (a * r) + rabs b) / 2 ^ 22 + 1 / 2 ^ 147
  /-- small integers are not rounded -/
  muladd_int : ∀ a r b : Int, (a * r).natAbs ≤ 2 ^ 24 → (a * r + b).natAbs ≤ 2 ^ 24 → muladd a r b = ((a * r + b : Int) : Rat)
  /-- the result of Convolution if the inverse of the divisor is infinite: `saturate` and the sum -/
  infDiv : Kind → Bool → Int → Nat
  /-- Convolution of float samples: coefficients, divisor, bias, saturate and the samples -/
  floatConv : Kind → List Nat → Option Nat → Option Nat → Bool → List Nat → Nat

variable (F : Floats)

/-- Conversion of an argument to single precision: nothing if it is not finite. -/
def single (b : Nat) : Option Rat :=
  match F.value b with
  | none => none
  | some q => if rabs (F.rnd q) < 2 ^ 128 then some (F.rnd q) else none

/-! ## Kernels -/

/-- Read a list of samples; `R` reads the sample in a column and a row. -/
def readAll (R : Nat → Nat → Res Nat) : List (Nat × Nat) → Res (List Nat)
  | [] => .ok []
  | (x, y) :: t => do
    let v ← R x y
    let l ← readAll R t
    .ok (v :: l)

/-- The rows `srcp0`, `srcp1` and `srcp2`, generic.cpp:294-300. -/
def row3 (h y r : Nat) : Nat :=
  match r with
  | 0 => if y = 0 then 0 else y - 1
  | 1 => y
  | _ => if y = h - 1 then h - 1 else y + 1

/-- The columns `a`, `b` and `c` for the first, the inner and the last sample of a row, generic.cpp:302-326. -/
def col3 (w x c : Nat) : Nat :=
  if x = 0 then (match c with
    | 0 => 0
    | 1 => 0
    | _ => if w > 1 then 1 else 0)
  else if x < w - 1 then (match c with
    | 0 => x - 1
    | 1 => x
    | _ => x + 1)
  else (match c with
    | 0 => w - 2
    | 1 => w - 1
    | _ => w - 1)

/-- The samples in the order of the arguments of `op`, generic.cpp:307. -/
def taps3 (w h x y : Nat) : List (Nat × Nat) :=
  [(col3 w x 0, row3 h y 0), (col3 w x 1, row3 h y 0), (col3 w x 2, row3 h y 0),
   (col3 w x 0, row3 h y 1), (col3 w x 1, row3 h y 1), (col3 w x 2, row3 h y 1),
   (col3 w x 0, row3 h y 2), (col3 w x 1, row3 h y 2), (col3 w x 2, row3 h y 2)]

/-- One sample of `filter_plane_3x3`, generic.cpp:285-329. -/
def cell3 (op : List Nat → Nat) (R : Nat → Nat → Res Nat) (w h x y : Nat) : Res Nat := do
  let l ← readAll R (taps3 w h x y)
  .ok (op l)

/-- `limit`, generic.cpp:45-49. -/
def limit (maxval v : Nat) : Nat := min v maxval

/-- The largest number of the type of the samples. -/
def typeMax : Kind → Nat
  | .byte => 255
  | _ => 65535

/-- `reduce`, generic.cpp:120-123. -/
def reduce (mx : Bool) (a b : Nat) : Nat := if mx then max a b else min a b

/-- `stencil[i] ? a : val`. -/
def pick (mx : Bool) (stencil i : Nat) (a val : Nat) : Nat := reduce mx val (if stencil.testBit i then a else val)

/-- `MinMaxOp`, generic.cpp:104-143, for integers. -/
def minMaxOp (mx : Bool) (th stencil : Nat) : List Nat → Nat
  | [a00, a01, a02, a10, a11, a12, a20, a21, a22] =>
    let val := a11
    let val := pick mx stencil 0 a00 val
    let val := pick mx stencil 1 a01 val
    let val := pick mx stencil 2 a02 val
    let val := pick mx stencil 3 a10 val
    let val := pick mx stencil 4 a12 val
    let val := pick mx stencil 5 a20 val
    let val := pick mx stencil 6 a21 val
    let val := pick mx stencil 7 a22 val
    if mx then min val (a11 + th) else (max (val : Int) (max ((a11 : Int) - th) 0)).toNat
  | _ => 0

/-- `compare_exchange`, generic.cpp:151-157: the smaller number to place `ij.1`, the larger one to place `ij.2`. -/
def exchange (l : List Nat) (ij : Nat × Nat) : List Nat :=
  let x := l.getD ij.1 0
  let y := l.getD ij.2 0
  (l.set ij.1 (min x y)).set ij.2 (max x y)

/-- The exchanges of `MedianOp`, generic.cpp:161-186; the places of a00, a01, a02, a10, a11, a12, a20, a21, a22 are 0 to 8. -/
def network : List (Nat × Nat) :=
  [(0, 1), (2, 3), (5, 6), (7, 8),
   (0, 2), (1, 3), (5, 7), (6, 8),
   (1, 2), (6, 7),
   (0, 5), (1, 6), (2, 7), (3, 8),
   (2, 5), (3, 6),
   (3, 5),
   (3, 4), (4, 5)]

/-- `MedianOp`, generic.cpp:145-188, for integers. -/
def medianOp (l : List Nat) : Nat := (network.foldl exchange l).getD 4 0

/-- `DeflateInflateOp`, generic.cpp:190-215, for integers: the sum fits 32 bits. -/
def flateOp (inflate : Bool) (th : Nat) : List Nat → Nat
  | [a00, a01, a02, a10, a11, a12, a20, a21, a22] =>
    let accum := (a00 + a01 + a02 + a10 + a12 + a20 + a21 + a22 + 4) % 2 ^ 32
    let val := accum / 8
    let val := if inflate then max val a11 else min val a11
    if inflate then min val (a11 + th) else (max (val : Int) (max ((a11 : Int) - th) 0)).toNat
  | _ => 0

/-- `std::lrint`: to the nearest integer, in the middle to the even one. -/
def lrint (q : Rat) : Int :=
  let f := q.floor
  if q - f < 1 / 2 then f
  else if 1 / 2 < q - f then f + 1
  else if f % 2 = 0 then f else f + 1

/-- `xrint`, generic.cpp:57-61. -/
def xrint (k : Kind) (q : Rat) : Nat := (lrint (min (max q 0) (typeMax k : Nat))).toNat

/-- `PrewittSobelOp`, generic.cpp:76-101, for integers. -/
def gradOp (sobel : Bool) (k : Kind) (scale : Rat) : List Nat → Nat
  | [a00, a01, a02, a10, _, a12, a20, a21, a22] =>
    let gx : Int := if sobel then (a20 : Int) + 2 * a21 + a22 - a00 - 2 * a01 - a02 else (a20 : Int) + a21 + a22 - a00 - a01 - a02
    let gy : Int := if sobel then (a02 : Int) + 2 * a12 + a22 - a00 - 2 * a10 - a20 else (a02 : Int) + a12 + a22 - a00 - a10 - a20
    xrint k (F.rnd (F.root gx gy * scale))
  | _ => 0

/-! ## Frames -/

/-- `checkPlaneDims`, genericfilters.cpp:802-814; `rh` and `rv` are the radii of a horizontal and vertical Convolution. -/
def checkDims (rh rv : Option Nat) (w h : Nat) : Option String :=
  if w < 4 ∨ h < 4 then some "Cannot process planes smaller than 4x4."
  else if rh.any (fun r => decide (r ≥ w)) then some "Width must be bigger than convolution radius."
  else if rv.any (fun r => decide (r ≥ h)) then some "Height must be bigger than convolution radius."
  else none

/-- The check of all planes, genericfilters.cpp:825-838 and 1018-1023. -/
def checkPlanes (rh rv : Option Nat) (process : List Bool) (n : Nat) (w h : Nat → Nat) : Option String :=
  (List.range n).findSome? fun p => if process.getD p false then checkDims rh rv (w p) (h p) else none

/-- The loops of a kernel: `cell` computes a sample from the samples of the source. -/
def genPlane (al bytes : Nat) (cell : (Nat → Nat → Res Nat) → Nat → Nat → Nat → Nat → Res Nat) (src : Frm) (p : Nat) (b : Buf) :
    Res Buf := do
  let b1 ← src.plane p
  fill (fun x y => cell (fun cx cy => rd b1 bytes (cy * src.stride al p + cx * bytes : Nat)) (src.w p) (src.h p) x y)
    bytes (src.stride al p) (src.w p) (src.h p) b

/-- `genericGetframe`, genericfilters.cpp:816-869. -/
def genFrame (al bytes : Nat) (name : String) (vi : VInfo) (rh rv : Option Nat)
    (cell : (Nat → Nat → Res Nat) → Nat → Nat → Nat → Nat → Res Nat) (process : List Bool) (src : Frm) (junk : Junk) : Res Frm :=
  match (if vi.width = 0 ∨ vi.height = 0 then checkPlanes rh rv process src.fmt.numPlanes.toNat src.w src.h else none) with
  | some m => .err (name ++ ": " ++ m)
  | none => do
    let srcs := [0, 1, 2].map fun p : Nat => if process.getD p false then none else some (src, (p : Int))
    let dst ← newVideoFrameOpt al src.fmt src.width src.height srcs src.props junk
    dst.build fun p b => if process.getD p false then genPlane al bytes cell src p b else .ok b

/-- The filters. -/
def genFilter (al bytes : Nat) (name : String) (vi : VInfo) (rh rv : Option Nat)
    (cell : (Nat → Nat → Res Nat) → Nat → Nat → Nat → Nat → Res Nat) (process : List Bool) : PFilter :=
  ⟨vi, fun n => [(0, n)], fun n get junk => do
    let src ← get 0 n
    genFrame al bytes name vi rh rv cell process src junk⟩

/-- `planeWidth` and `planeHeight`, src/core/filtershared.h:35-41. -/
def planeDim (size ss : Int) (p : Nat) : Nat := if p = 0 then size.toNat else size.toNat / 2 ^ ss.toNat

/-- The end of `genericCreate`, genericfilters.cpp:1018-1055: the size is checked if it is known, and there is a kernel for every
format that passed the check. -/
def genFinish (al : Nat) (name : String) (vi : VInfo) (rh rv : Option Nat)
    (cell : Kind → (Nat → Nat → Res Nat) → Nat → Nat → Nat → Nat → Res Nat) (process : List Bool) : Res Created :=
  match (if vi.width ≠ 0 ∧ vi.height ≠ 0 then
      checkPlanes rh rv process vi.format.numPlanes.toNat (planeDim vi.width vi.format.subSamplingW) (planeDim vi.height vi.format.subSamplingH)
    else none) with
  | some m => .err (name ++ ": " ++ m)
  | none =>
    match kindOf vi.format with
    | none => .err (name ++ ": no kernel available for the clip format")
    | some k => create (genFilter al k.bytes name vi rh rv (cell k) process)

/-! ## Arguments -/

/-- `floatToInt64S`, genericfilters.cpp:871-878. The result of `llround` for 2^63 is not specified; it is 2^63 here, which is refused
like the number that x86 processors give. -/
def floatToInt64S (q : Rat) : Int :=
  if q > 2 ^ 63 then 2 ^ 63 - 1
  else if q < -2 ^ 63 then -2 ^ 63
  else if 0 ≤ q then (q + 1 / 2).floor else -(-q + 1 / 2).floor

/-- The argument `threshold`, genericfilters.cpp:897-915. -/
def getThreshold (name : String) (f : VFmt) (arg : Option Nat) : Res Nat :=
  match arg with
  | none => .ok ((2 ^ f.bitsPerSample.toNat - 1) % 65536)
  | some b =>
    match single F b with
    | none => .err (name ++ ": threshold must be finite.")
    | some q =>
      if f.sampleType = stInteger then
        (if floatToInt64S q < 0 ∨ floatToInt64S q > 2 ^ f.bitsPerSample.toNat - 1 then .err (name ++ ": threshold bigger than sample value.")
        else .ok ((floatToInt64S q).toNat % 65536))
      else (if q < 0 then .err (name ++ ": threshold must be a positive value.") else .ok 0)

/-- The argument `coordinates`, genericfilters.cpp:917-929. -/
def getStencil (name : String) (arg : Option (List Int)) : Res Nat :=
  match arg with
  | none => .ok 0xFF
  | some [c0, c1, c2, c3, c4, c5, c6, c7] =>
    .ok ([c0, c1, c2, c3, c4, c5, c6, c7].zipIdx.foldl (fun (e : Nat) (c : Int × Nat) => e ||| (if c.1 ≠ 0 then 1 <<< c.2 else 0)) 0)
  | some _ => .err (name ++ ": coordinates must contain exactly 8 numbers.")

/-- The argument `scale`, genericfilters.cpp:932-939. -/
def getScale (name : String) (arg : Option Nat) : Res Rat :=
  match arg with
  | none => .ok 1
  | some b =>
    match single F b with
    | none => .err (name ++ ": scale must not be negative.")
    | some q => if q < 0 then .err (name ++ ": scale must not be negative.") else .ok q

/-- The kernel of a kind of samples for integers and floats. -/
def kernel3 (op : Op) (maxval : Nat) (int : Kind → List Nat → Nat) (arg : Option Nat) (stencil : Nat) (k : Kind) :
    (Nat → Nat → Res Nat) → Nat → Nat → Nat → Nat → Res Nat :=
  match k with
  | .byte => cell3 fun l => limit maxval (int .byte l)
  | .word => cell3 fun l => limit maxval (int .word l)
  | k => cell3 fun l => F.float3 op k arg stencil l

/-- The largest sample as `uint16_t`, genericfilters.cpp:236. -/
def maxSample (f : VFmt) : Nat := (2 ^ f.bitsPerSample.toNat - 1) % 65536

/-- `genericCreate` for Minimum and Maximum, genericfilters.cpp:880-1055. -/
def minMaxCreate (al : Nat) (mx : Bool) (vi : VInfo) (planes : List Int) (threshold : Option Nat) (coordinates : Option (List Int)) :
    Res Created :=
  let name := if mx then "Maximum" else "Minimum"
  if !is8to16orFloat vi.format then .err (badFormat name)
  else do
    let process ← getPlanesArg name planes
    let th ← getThreshold F name vi.format threshold
    let stencil ← getStencil name coordinates
    genFinish al name vi none none
      (kernel3 F (if mx then .maximum else .minimum) (maxSample vi.format) (fun _ => minMaxOp mx th stencil) threshold stencil) process

/-- `genericCreate` for Median. -/
def medianCreate (al : Nat) (vi : VInfo) (planes : List Int) : Res Created :=
  if !is8to16orFloat vi.format then .err (badFormat "Median")
  else do
    let process ← getPlanesArg "Median" planes
    genFinish al "Median" vi none none (kernel3 F .median (maxSample vi.format) (fun _ => medianOp) none 0) process

/-- `genericCreate` for Deflate and Inflate. -/
def flateCreate (al : Nat) (inflate : Bool) (vi : VInfo) (planes : List Int) (threshold : Option Nat) : Res Created :=
  let name := if inflate then "Inflate" else "Deflate"
  if !is8to16orFloat vi.format then .err (badFormat name)
  else do
    let process ← getPlanesArg name planes
    let th ← getThreshold F name vi.format threshold
    genFinish al name vi none none
      (kernel3 F (if inflate then .inflate else .deflate) (maxSample vi.format) (fun _ => flateOp inflate th) threshold 0) process

/-- `genericCreate` for Prewitt and Sobel. -/
def gradCreate (al : Nat) (sobel : Bool) (vi : VInfo) (planes : List Int) (scale : Option Nat) : Res Created :=
  let name := if sobel then "Sobel" else "Prewitt"
  if !is8to16orFloat vi.format then .err (badFormat name)
  else do
    let process ← getPlanesArg name planes
    let sc ← getScale F name scale
    genFinish al name vi none none
      (kernel3 F (if sobel then .sobel else .prewitt) (maxSample vi.format) (fun k => gradOp F sobel k sc) scale 0) process

end VS.Generic
