import Verif.Generic.Spec
import Verif.Generic.ConvModel

/-! # What Convolution computes -/

namespace VS.Generic.Spec
open VS VS.Format VS.Pix VS.Point VS.Point.Spec VS.Pixel VS.Pixel.Spec VS.Generic

/-- The picture is continued by its mirror image; beyond that by the last sample. -/
def mirrored (n : Nat) (i : Int) : Nat := min (n - 1) (if i < 0 then -i - 1 else if (n : Int) ≤ i then 2 * n - 1 - i else i).toNat

/-- The sum over a row, the middle of the matrix on the sample. -/
def rowSum (m : List Int) (v : Nat → Nat → Nat) (w x y : Nat) : Int :=
  ((List.range m.length).map fun k => m.getD k 0 * (v (mirrored w ((x : Int) + (k : Int) - (m.length / 2 : Nat))) y : Int)).sum

/-- The sum over a column. -/
def colSum (m : List Int) (v : Nat → Nat → Nat) (h x y : Nat) : Int :=
  ((List.range m.length).map fun k => m.getD k 0 * (v x (mirrored h ((y : Int) + (k : Int) - (m.length / 2 : Nat))) : Int)).sum

/-- The sum over a square with `n` rows. -/
def boxSum (n : Nat) (m : List Int) (v : Nat → Nat → Nat) (w h x y : Nat) : Int :=
  ((List.range n).map fun r => ((List.range n).map fun k => m.getD (r * n + k) 0 *
    (v (mirrored w ((x : Int) + (k : Int) - (n / 2 : Nat))) (mirrored h ((y : Int) + (r : Int) - (n / 2 : Nat))) : Int)).sum).sum

/-- The size of a square matrix. -/
def sizeOf (len : Nat) : Nat := if len = 9 then 3 else if len = 25 then 5 else if len = 49 then 7 else if len = 81 then 9 else 11

/-- The sum for the modes with one step. -/
def sumFor (mode : ConvMode) (m : List Int) (v : Nat → Nat → Nat) (w h x y : Nat) : Int :=
  match mode with
  | .square => boxSum (sizeOf m.length) m v w h x y
  | .horizontal => rowSum m v w x y
  | _ => colSum m v h x y

/-- The samples under the matrix in the order in which they are added up, for float samples. -/
def under (mode : ConvMode) (n : Nat) (v : Nat → Nat → Nat) (w h x y : Nat) : List Nat :=
  match mode with
  | .square =>
    if n = 9 then (List.range 3).flatMap fun (r : Nat) => (List.range 3).map fun (k : Nat) =>
      v (mirrored w ((x : Int) + (k : Int) - 1)) (mirrored h ((y : Int) + (r : Int) - 1))
    else (List.range (sizeOf n)).flatMap fun (k : Nat) => (List.range (sizeOf n)).map fun (r : Nat) =>
      v (mirrored w ((x : Int) + (k : Int) - (sizeOf n / 2 : Nat))) (mirrored h ((y : Int) + (r : Int) - (sizeOf n / 2 : Nat)))
  | .horizontal => (List.range n).map fun (k : Nat) => v (mirrored w ((x : Int) + (k : Int) - (n / 2 : Nat))) y
  | _ => (List.range n).map fun (k : Nat) => v x (mirrored h ((y : Int) + (k : Int) - (n / 2 : Nat)))

/-- The sum divided by the divisor plus the bias, without the sign if it isn't saturated. -/
def scaled (a : Int) (d b : Rat) (saturate : Bool) : Rat := if saturate then (a : Rat) / d + b else rabs ((a : Rat) / d + b)

/-- `r` is this number rounded and limited to 0 to `t`, up to the errors of single precision; it is exact if no fractions occur. -/
def ConvResult (t : Nat) (saturate : Bool) (d b : Rat) (a : Int) (r : Nat) : Prop :=
  r ≤ t ∧ rabs ((r : Rat) - max 0 (min (scaled a d b saturate) t)) ≤ 1 / 2 + (rabs ((a : Rat) / d) + rabs b) / 2 ^ 20 + 1 / 2 ^ 100 ∧
  ∀ z : Int, d = 1 → b = z → a.natAbs ≤ 2 ^ 24 → (a + z).natAbs ≤ 2 ^ 24 →
    (r : Int) = max 0 (min (if saturate then a + z else ((a + z).natAbs : Int)) t)

/-- The integer next to a number; away from 0 if there are two. -/
def RoundsTo (q : Rat) (c : Int) : Prop := rabs (q - c) ≤ 1 / 2 ∧ (rabs (q - c) = 1 / 2 → rabs q ≤ rabs c)

/-- The coefficients rounded to integers. -/
def CoeffsAre (F : Floats) : List Nat → List Int → Prop
  | [], [] => True
  | b :: t, c :: l => (∃ q, F.value b = some q ∧ RoundsTo q c ∧ -1023 ≤ c ∧ c ≤ 1023) ∧ CoeffsAre F t l
  | _, _ => False

/-- Matrices that are accepted. -/
def CoeffsOk (F : Floats) (f : VFmt) (matrix : List Nat) : Prop :=
  ∀ b ∈ matrix, ∃ q, F.value b = some q ∧ (f.sampleType = stInteger → rabs q < 1023 + 1 / 2)

/-- The divisor; without one or for 0 it is the sum of the coefficients, or 1. -/
def DivisorIs (F : Floats) (arg : Option Nat) (m : List Int) (d : Rat) : Prop :=
  ((arg = none ∨ ∃ b, arg = some b ∧ single F b = some 0) ∧ d = (if m.sum = 0 then 1 else m.sum : Int)) ∨
    ∃ b, arg = some b ∧ single F b = some d ∧ d ≠ 0

/-- The bias. -/
def BiasIs (F : Floats) (arg : Option Nat) (b : Rat) : Prop := (arg = none ∧ b = 0) ∨ ∃ v, arg = some v ∧ single F v = some b

/-- An argument that is a finite number, or isn't given. -/
def Finite (F : Floats) (arg : Option Nat) : Prop := ∀ b, arg = some b → ∃ q, single F b = some q

/-- The mode and the allowed sizes of the matrix. -/
def ModeIs (arg : Option String) (n : Nat) (mode : ConvMode) : Prop :=
  ((arg = none ∨ arg = some "s") ∧ (n = 9 ∨ n = 25 ∨ n = 49 ∨ n = 81 ∨ n = 121) ∧ mode = .square) ∨
  (3 ≤ n ∧ n ≤ 25 ∧ n % 2 = 1 ∧ ((arg = some "h" ∧ mode = .horizontal) ∨ (arg = some "v" ∧ mode = .vertical) ∨
    ((arg = some "hv" ∨ arg = some "vh") ∧ mode = .separable)))

/-- A plane is large enough. -/
def Fits (mode : ConvMode) (n : Nat) (w h : Int) : Prop :=
  4 ≤ w ∧ 4 ≤ h ∧ (mode = .horizontal ∨ mode = .separable → (n / 2 : Nat) < w) ∧ (mode = .vertical ∨ mode = .separable → (n / 2 : Nat) < h)

/-- All planes to be processed are, or the size isn't known yet. -/
def ClipFits (mode : ConvMode) (n : Nat) (vi : VInfo) (planes : List Int) : Prop :=
  0 < vi.width → ∀ p : Nat, (p : Int) < vi.format.numPlanes → Wanted planes p →
    Fits mode n (planeSize vi.width vi.format.subSamplingW p) (planeSize vi.height vi.format.subSamplingH p)

/-- All planes of a frame that are to be processed are. -/
def FrameFits (mode : ConvMode) (n : Nat) (f : Frm) (planes : List Int) : Prop :=
  ∀ p : Nat, (p : Int) < f.fmt.numPlanes → Wanted planes p → Fits mode n (f.w p) (f.h p)

end VS.Generic.Spec
