import Verif.Generic.Model

/-!
# Convolution

Model of Convolution in src/core/genericfilters.cpp and of its plain C++ kernels in src/core/kernel/generic.cpp.
-/

namespace VS.Generic
open VS VS.Format VS.Map VS.Map.Spec VS.Pix VS.Point VS.Pixel

variable (F : Floats)

/-- `ConvolutionTypes`, genericfilters.cpp:122-127. -/
inductive ConvMode where
  | square
  | horizontal
  | vertical
  | separable
  deriving DecidableEq

/-! ## Kernels -/

/-- `mirror_index`, generic.cpp:333-346. -/
def mirrorIndex (pos : Int) (len : Nat) : Nat :=
  let pos := if pos < 0 then -pos - 1 else if pos ≥ len then 2 * len - 1 - pos else pos
  let pos := if pos < 0 then 0 else if pos ≥ len then (len : Int) - 1 else pos
  pos.toNat

/-- The sum of the products in a signed integer of `bits` bits; an overflow is undefined. -/
def accumulate (bits : Nat) : List (Int × Nat) → Int → Res Int
  | [], a => .ok a
  | (c, v) :: t, a =>
    if a + c * v < -2 ^ (bits - 1) ∨ 2 ^ (bits - 1) ≤ a + c * v then .ub else accumulate bits t (a + c * v)

/-- Read samples and add them up. -/
def convSum (bits : Nat) (R : Nat → Nat → Res Nat) (coeffs : List Int) (taps : List (Nat × Nat)) : Res Int := do
  let l ← readAll R taps
  accumulate bits (coeffs.zip l) 0

/-- The column of a tap of `conv_plane_square`, generic.cpp:372-456: mirrored near the left and right edge. -/
def squareCol (n w x k : Nat) : Nat :=
  if x < min w (n / 2) ∨ max (n / 2) (w - min w (n / 2)) ≤ x then mirrorIndex ((x : Int) + k - (n / 2 : Nat)) w else x + k - n / 2

/-- The taps of `conv_plane_square` in their order: columns outside, rows inside. -/
def squareTaps (n w h x y : Nat) : List (Nat × Nat) :=
  (List.range n).flatMap fun k => (List.range n).map fun (r : Nat) => (squareCol n w x k, mirrorIndex ((y : Int) + r - (n / 2 : Nat)) h)

/-- Their coefficients. -/
def squareCoeffs (n : Nat) (m : List Int) : List Int :=
  (List.range n).flatMap fun k => (List.range n).map fun r => m.getD (r * n + k) 0

/-- The column of a tap of `conv_scanline_h`, generic.cpp:474-525; `s` is `support`. In unsigned arithmetic
`j - support + k` is `j + k - support`, also if `j` is smaller than `support`. -/
def hIndex (s w j k : Nat) : Nat :=
  if j < min w s ∨ max s (w - min w s) ≤ j then
    (if k < s then (if j < s - k then min (s - k - j - 1) (w - 1) else j + k - s)
    else (if w - 1 - j < k - s then w - min (k - s - (w - 1 - j)) w else j + k - s))
  else j + k - s

/-- The row of a tap of `conv_plane_v` and `conv_plane_x`, generic.cpp:580-587 and 606-613. -/
def vIndex (s h i k : Nat) : Nat :=
  if k < s then (if i < s - k then min (s - k - i - 1) (h - 1) else i + k - s)
  else (if h - 1 - i < k - s then h - min (k - s - (h - 1 - i)) i else i + k - s)

/-- The taps of a row. -/
def hTaps (n w j y : Nat) : List (Nat × Nat) := (List.range n).map fun k => (hIndex (n / 2) w j k, y)

/-- The taps of a column. -/
def vTaps (n h x i : Nat) : List (Nat × Nat) := (List.range n).map fun k => (x, vIndex (n / 2) h i k)

/-- The number of rows of a square matrix, genericfilters.cpp:695-711. -/
def side (len : Nat) : Nat := if len = 25 then 5 else if len = 49 then 7 else if len = 81 then 9 else 11

/-- The end of a convolution, generic.cpp:253-255: `rdiv` is nothing if it is infinite. -/
def convOut (k : Kind) (rdiv : Option Rat) (bias : Rat) (saturate : Bool) (maxval : Nat) (a : Int) : Nat :=
  match rdiv with
  | none => limit maxval (F.infDiv k saturate a)
  | some r =>
    limit maxval (xrint k (if saturate then F.muladd (F.rnd a) r bias else rabs (F.muladd (F.rnd a) r bias)))

/-- The sum for a sample in the square modes: `ConvolutionOp`, generic.cpp:238-251, and `conv_plane_square`, generic.cpp:357-456. -/
def squareSum (k : Kind) (m : List Int) (R : Nat → Nat → Res Nat) (w h x y : Nat) : Res Int :=
  if m.length = 9 then convSum 32 R m (taps3 w h x y)
  else convSum (if k = .word ∧ side m.length > 5 then 64 else 32) R (squareCoeffs (side m.length) m) (squareTaps (side m.length) w h x y)

/-- One sample for integers; `out` is the end of the computation. The rows of the separable mode are computed for every sample again. -/
def convCell (mode : ConvMode) (k : Kind) (m : List Int) (out : Int → Nat) (R : Nat → Nat → Res Nat) (w h x y : Nat) : Res Nat :=
  match mode with
  | .square => do
    let a ← squareSum k m R w h x y
    .ok (out a)
  | .horizontal => do
    let a ← convSum 32 R m (hTaps m.length w x y)
    .ok (out a)
  | .vertical => do
    let a ← convSum 32 R m (vTaps m.length h x y)
    .ok (out a)
  | .separable => do
    let a ← convSum 32 (fun cx cy => do
      let a ← convSum 32 R m (vTaps m.length h cx cy)
      .ok (out a)) m (hTaps m.length w x y)
    .ok (out a)

/-- One sample for floats: `out` computes it from the samples under the matrix. -/
def convCellF (mode : ConvMode) (n : Nat) (out : List Nat → Nat) (R : Nat → Nat → Res Nat) (w h x y : Nat) : Res Nat :=
  match mode with
  | .square => do
    let l ← readAll R (if n = 9 then taps3 w h x y else squareTaps (side n) w h x y)
    .ok (out l)
  | .horizontal => do
    let l ← readAll R (hTaps n w x y)
    .ok (out l)
  | .vertical => do
    let l ← readAll R (vTaps n h x y)
    .ok (out l)
  | .separable => do
    let l ← readAll (fun cx cy => do
      let l ← readAll R (vTaps n h cx cy)
      .ok (out l)) (hTaps n w x y)
    .ok (out l)

/-! ## Arguments -/

/-- The argument `bias`, genericfilters.cpp:942-944. -/
def getBias (arg : Option Nat) : Res Rat :=
  match arg with
  | none => .ok 0
  | some b =>
    match single F b with
    | none => .err "Convolution: bias must be finite."
    | some q => .ok q

/-- The argument `mode` and the number of elements of the matrix, genericfilters.cpp:950-974. -/
def getMode (arg : Option String) (n : Nat) : Res ConvMode :=
  if arg = none ∨ arg = some "s" then
    (if n ≠ 9 ∧ n ≠ 25 ∧ n ≠ 49 ∧ n ≠ 81 ∧ n ≠ 121 then
      .err "Convolution: When mode starts with 's', matrix must contain exactly 9, 25, 49, 81 or 121 numbers (a 3x3, 5x5, 7x7, 9x9 or 11x11 square)."
    else .ok .square)
  else if arg = some "h" ∨ arg = some "v" ∨ arg = some "hv" ∨ arg = some "vh" then
    (if n < 3 ∨ n > 25 then .err "Convolution: When mode starts with 'h' or 'v', matrix must contain between 3 and 25 numbers."
    else if n % 2 = 0 then .err "Convolution: matrix must contain an odd number of numbers."
    else .ok (if arg = some "h" then .horizontal else if arg = some "v" then .vertical else .separable))
  else .err "Convolution: mode must be one of 's', 'h', 'v', 'hv', 'vh'."

/-- `std::round`. -/
def roundAway (q : Rat) : Int := if 0 ≤ q then (q + 1 / 2).floor else -(-q + 1 / 2).floor

/-- The coefficients of integer clips, genericfilters.cpp:980-990. -/
def getCoeffs : List Nat → Res (List Int)
  | [] => .ok []
  | b :: t =>
    match F.value b with
    | none => .err "Convolution: coefficients must be finite"
    | some q =>
      if roundAway q < -1023 ∨ roundAway q > 1023 then .err "Convolution: coefficients may only be between -1023 and 1023"
      else do
        let l ← getCoeffs t
        .ok (roundAway q :: l)

/-- The coefficients of float clips only have to be finite. -/
def checkCoeffs : List Nat → Res (List Int)
  | [] => .ok []
  | b :: t =>
    match F.value b with
    | none => .err "Convolution: coefficients must be finite"
    | some _ => checkCoeffs t

/-- The sum of the coefficients, 1 for zero, genericfilters.cpp:1005-1008. It is exact for integers. -/
def coeffSum (m : List Int) : Int := if m.sum = 0 then 1 else m.sum

/-- The argument `divisor`, genericfilters.cpp:1010-1014. -/
def getDivisor (arg : Option Nat) (m : List Int) : Res Rat :=
  match arg with
  | none => .ok (coeffSum m : Int)
  | some b =>
    match single F b with
    | none => .err "Convolution: divisor must be finite."
    | some q => .ok (if q = 0 then (coeffSum m : Int) else q)

/-- `1.0f / d->rdiv`, genericfilters.cpp:1016: nothing if it is infinite. -/
def inverse (d : Rat) : Option Rat := if rabs (F.rnd (1 / d)) < 2 ^ 128 then some (F.rnd (1 / d)) else none

/-- The radius of a horizontal kernel. -/
def radiusH (mode : ConvMode) (n : Nat) : Option Nat :=
  match mode with
  | .horizontal | .separable => some (n / 2)
  | _ => none

/-- The radius of a vertical kernel. -/
def radiusV (mode : ConvMode) (n : Nat) : Option Nat :=
  match mode with
  | .vertical | .separable => some (n / 2)
  | _ => none

/-- The kernel of a kind of samples. -/
def convKernel (mode : ConvMode) (n : Nat) (m : List Int) (rdiv : Option Rat) (bias : Rat) (saturate : Bool) (maxval : Nat)
    (floats : Kind → List Nat → Nat) (k : Kind) : (Nat → Nat → Res Nat) → Nat → Nat → Nat → Nat → Res Nat :=
  match k with
  | .byte => convCell mode .byte m (convOut F .byte rdiv bias saturate maxval)
  | .word => convCell mode .word m (convOut F .word rdiv bias saturate maxval)
  | k => convCellF mode n (floats k)

/-- The matrix for a kind of samples. -/
def getMatrix (f : VFmt) (matrix : List Nat) : Res (List Int) :=
  if f.sampleType = stInteger then getCoeffs F matrix else checkCoeffs F matrix

/-- `genericCreate` for Convolution, genericfilters.cpp:880-1055. -/
def convCreate (al : Nat) (vi : VInfo) (planes : List Int) (matrix : List Nat) (mode : Option String) (divisor bias : Option Nat)
    (saturate : Option Int) : Res Created :=
  if !is8to16orFloat vi.format then .err (badFormat "Convolution")
  else do
    let process ← getPlanesArg "Convolution" planes
    let b ← getBias F bias
    let md ← getMode mode matrix.length
    let m ← getMatrix F vi.format matrix
    let d ← getDivisor F divisor m
    genFinish al "Convolution" vi (radiusH md matrix.length) (radiusV md matrix.length)
      (convKernel F md matrix.length m (inverse F d) b (decide (saturate ≠ some 0)) (maxSample vi.format)
        (fun k => F.floatConv k matrix divisor bias (decide (saturate ≠ some 0)))) process

end VS.Generic
