import Verif.Pem.Model
import Verif.Generic.ConvSpec
import Verif.Half.Spec

/-! # What PEMVerifier checks -/

namespace VS.Pem.Spec
open VS VS.Format VS.Pix VS.Pix.Spec VS.Point VS.Point.Spec VS.Gain VS.Generic.Spec VS.Pem

/-- There is a sample in column `x` and row `y` of plane `p`. -/
def Place (f : Frm) (p x y : Nat) : Prop := (p : Int) < f.fmt.numPlanes ∧ x < f.w p ∧ y < f.h p

/-- The order in which pictures are read: planes, rows, columns. -/
def Before (p' x' y' p x y : Nat) : Prop := p' < p ∨ p' = p ∧ (y' < y ∨ y' = y ∧ x' < x)

/-- Frames of which all samples are legal go through unchanged; for others there is an error that names the first illegal sample. -/
def Verifies (al : Nat) (C : Created) (c : PClip) (Legal : Nat → Nat → Prop) (text : Nat → String) : Prop :=
  ∀ n f, c.frames[n]? = some f → ∀ junk,
    ((∀ p x y, Place f p x y → Legal p (smp al f p x y)) → C.frame [c] n junk = .ok f) ∧
    ∀ p x y, Place f p x y → ¬ Legal p (smp al f p x y) →
      (∀ p' x' y', Place f p' x' y' → Before p' x' y' p x y → Legal p' (smp al f p' x' y')) →
      C.frame [c] n junk = .err (s!"PEMVerifier: Illegal sample value ({text (smp al f p x y)}) at: plane: {p} Y: {y}, X: {x}, Frame: {n}")

/-- Bounds for an integer clip: the default, or the numbers of the argument in single precision, rounded. -/
def IntBounds (F : PFloats) (f : VFmt) (arg : Option (List Dbl)) (default : Int) (b : Nat → Int) : Prop :=
  (arg = none ∧ ∀ p, b p = default) ∨
    ∃ l, arg = some l ∧ (l.length : Int) = f.numPlanes ∧ ∀ p v, l[p]? = some v → ∃ q, F.single v = .fin q ∧ RoundsTo q (b p)

/-- Bounds for a float clip: the default, which is different for chroma planes, or the numbers of the argument in single precision. -/
def FloatBounds (F : PFloats) (f : VFmt) (arg : Option (List Dbl)) (luma chroma : Rat) (b : Nat → Dbl) : Prop :=
  (arg = none ∧ ∀ p, b p = .fin (if f.colorFamily = cfYUV ∧ 0 < p then chroma else luma)) ∨
    ∃ l, arg = some l ∧ (l.length : Int) = f.numPlanes ∧ ∀ p v, l[p]? = some v → b p = F.single v

/-- A number is not below a bound; a NaN is no bound. -/
def AtLeast (b : Dbl) (q : Rat) : Prop :=
  match b with
  | .fin a => a ≤ q
  | .inf neg => neg = true
  | .nan => True

/-- A number is not above a bound. -/
def AtMost (b : Dbl) (q : Rat) : Prop :=
  match b with
  | .fin a => q ≤ a
  | .inf neg => neg = false
  | .nan => True

/-- The bounds are in the wrong order. -/
def Crossed (lo hi : Dbl) : Prop :=
  match lo, hi with
  | .fin a, .fin b => b < a
  | .fin _, .inf neg => neg = true
  | .inf neg, .fin _ => neg = false
  | .inf a, .inf b => a = false ∧ b = true
  | _, _ => False

/-- The numbers of float samples. -/
def layout (f : VFmt) : Half.Spec.Fmt := if f.bitsPerSample = 16 then Half.Spec.half else Half.Spec.single

/-- A legal float sample. -/
def Within (f : VFmt) (lo hi : Nat → Dbl) (p v : Nat) : Prop :=
  (layout f).Finite v ∧ AtLeast (lo p) ((layout f).value v) ∧ AtMost (hi p) ((layout f).value v)

/-- Numbers that are no bounds for a format. -/
def BadInt (F : PFloats) (f : VFmt) (v : Dbl) : Prop :=
  (∃ neg, F.single v = .inf neg) ∨ ∃ q z, F.single v = .fin q ∧ RoundsTo q z ∧ (z < 0 ∨ 2 ^ f.bitsPerSample.toNat ≤ z)

end VS.Pem.Spec
