import Mathlib.Data.Rat.Defs
import Mathlib.Algebra.Order.Field.Rat
import Mathlib.Algebra.Order.Group.Abs

/-!
# Half and single precision numbers

The binary interchange formats of IEEE 754: a sign, an exponent and a fraction.
-/

namespace VS.Half.Spec

/-- A format with `w` bits for the exponent and `t` bits for the fraction. -/
structure Fmt where
  w : Nat
  t : Nat

/-- binary16. -/
def half : Fmt := ⟨5, 10⟩

/-- binary32. -/
def single : Fmt := ⟨8, 23⟩

/-- The bits of a number. -/
def Fmt.Bits (F : Fmt) (b : Nat) : Prop := b < 2 ^ (1 + F.w + F.t)

/-- The sign: 1 is negative. -/
def Fmt.sign (F : Fmt) (b : Nat) : Nat := b / 2 ^ (F.w + F.t)

/-- The exponent as it is stored. -/
def Fmt.exp (F : Fmt) (b : Nat) : Nat := b / 2 ^ F.t % 2 ^ F.w

/-- The fraction as it is stored. -/
def Fmt.frac (F : Fmt) (b : Nat) : Nat := b % 2 ^ F.t

/-- The bias of the exponent. -/
def Fmt.bias (F : Fmt) : Int := 2 ^ (F.w - 1) - 1

/-- Finite numbers. -/
def Fmt.Finite (F : Fmt) (b : Nat) : Prop := F.exp b ≠ 2 ^ F.w - 1

/-- Infinity, of either sign. -/
def Fmt.Inf (F : Fmt) (b : Nat) : Prop := F.exp b = 2 ^ F.w - 1 ∧ F.frac b = 0

/-- Not a number. -/
def Fmt.NaN (F : Fmt) (b : Nat) : Prop := F.exp b = 2 ^ F.w - 1 ∧ F.frac b ≠ 0

/-- The value of a finite number, IEEE 754-2019, 3.4. -/
def Fmt.value (F : Fmt) (b : Nat) : Rat :=
  (if F.sign b = 1 then -1 else 1) *
    (if F.exp b = 0 then (2 : Rat) ^ (1 - F.bias) * ((F.frac b : Rat) / 2 ^ F.t)
     else (2 : Rat) ^ ((F.exp b : Int) - F.bias) * (1 + (F.frac b : Rat) / 2 ^ F.t))

/-- `h` is the half precision number next to `x`; of two that are equally near it is the one away from zero. -/
def Nearest (x : Rat) (h : Nat) : Prop :=
  ∀ g, half.Bits g → half.Finite g → |x - half.value h| ≤ |x - half.value g| ∧
    (|x - half.value h| = |x - half.value g| → |half.value g| ≤ |half.value h|)

/-- `h` is the half precision number next to `x`; of two that are equally near it is the even one. -/
def NearestEven (x : Rat) (h : Nat) : Prop :=
  ∀ g, half.Bits g → half.Finite g → |x - half.value h| ≤ |x - half.value g| ∧
    (|x - half.value h| = |x - half.value g| → half.value g = half.value h ∨ h % 2 = 0)

end VS.Half.Spec
