import Verif.Base.Sum
import Verif.Point.Spec
import Verif.Blur.Model

/-!
# What BoxBlur promises

Every pass replaces each sample of a row by the average of the samples at most `r` columns away. Beyond the ends of the row is the first
or the last sample again. The averages are rounded up in the first pass, down in the second, and so on.
-/

namespace VS.Blur.Spec
open VS VS.Format VS.Pix VS.Pix.Spec VS.Point VS.Point.Spec

/-- The sum of `2 * r + 1` samples around column `x` of a row of `w` samples; differences are 0 instead of negative. -/
def boxSum (r w : Nat) (s : Nat → Nat) (x : Nat) : Nat := sumTo (fun k => s (min (x + k - r) (w - 1))) (2 * r + 1)

/-- The average, rounded up or down. -/
def boxRow (r : Nat) (up : Bool) (w : Nat) (s : Nat → Nat) (x : Nat) : Nat :=
  (boxSum r w s x + if up then 2 * r else 0) / (2 * r + 1)

/-- Several passes. -/
def boxes (r w : Nat) : Nat → (Nat → Nat) → Nat → Nat
  | 0, s => s
  | n + 1, s => boxRow r (n % 2 = 0) w (boxes r w n s)

/-! ## Float samples

A sum that moves along the row: what comes into reach is added, what gets out of reach is subtracted, in this order. -/

/-- The sum before the first column. -/
def runStart (F : Floats) (k : Kind) (r w : Nat) (s : Nat → Nat) : Nat → F.A
  | 0 => F.scale r (F.load k (s 0))
  | i + 1 => F.add (runStart F k r w s i) (F.load k (s (min i (w - 1))))

/-- The sum for column `x`; with radius 1 the first sample is doubled instead of added. -/
def run (F : Floats) (k : Kind) (r w : Nat) (s : Nat → Nat) : Nat → F.A
  | 0 => F.add (if r = 1 ∧ 3 ≤ w then F.scale 2 (F.load k (s 0)) else runStart F k r w s r) (F.load k (s (min r (w - 1))))
  | x + 1 => F.add (F.sub (run F k r w s x) (F.load k (s (x - r)))) (F.load k (s (min (x + 1 + r) (w - 1))))

/-- Several passes. -/
def runs (F : Floats) (k : Kind) (r w : Nat) : Nat → (Nat → Nat) → Nat → Nat
  | 0, s => s
  | n + 1, s => fun x => F.out k r (run F k r w (runs F k r w n s) x) % 256 ^ k.bytes

/-! ## Pictures -/

/-- A change of rows: the number of columns, the row, the column. -/
abbrev RowFn := Nat → (Nat → Nat) → Nat → Nat

/-- Passes over integer samples. -/
def intFn (r n : Nat) : RowFn := fun w => boxes r w n

/-- Passes over float samples; nothing is done if the radius is 0. -/
def floatFn (F : Floats) (k : Kind) (r n : Nat) : RowFn := fun w s => if 0 < r then runs F k r w n s else s

/-- First the rows are changed by `H`, then the columns by `V`, in a picture of `w` × `h` samples. -/
def blurred (H V : RowFn) (w h : Nat) (S : Nat → Nat → Nat) (x y : Nat) : Nat :=
  V h (fun y => H w (fun x => S x y) x) y

/-- What the rows become: `n` passes with radius `r` over samples of the format `f`. -/
def rowFn (F : Floats) (f : VFmt) (r n : Nat) : RowFn :=
  if f.sampleType = stFloat then floatFn F (if f.bitsPerSample = 32 then .single else .half) r n else intFn r n

/-- An argument, 1 if it is not given. -/
def given (a : Option Int) : Int := a.getD 1

/-- Arguments that `BoxBlur` accepts, for a clip of at least 4 × 4 samples. -/
structure ArgsOk (planes : List Int) (hradius hpasses vradius vpasses : Option Int) : Prop where
  planesOk : PlanesOk planes
  hpassesOk : 0 ≤ given hpasses
  vpassesOk : 0 ≤ given vpasses
  hradiusOk : 0 ≤ given hradius ∧ given hradius ≤ 30000
  vradiusOk : 0 ≤ given vradius ∧ given vradius ≤ 30000
  some : 0 < given hradius ∧ 0 < given hpasses ∨ 0 < given vradius ∧ 0 < given vpasses

/-- A number as `int`; large ones become the largest `int`. -/
def count (a : Option Int) : Nat := (min (given a) INT_MAX).toNat

end VS.Blur.Spec
