import Verif.Expr.Basic

/-! # Expr: exact arithmetic with rational numbers, for examples -/

namespace VS.Expr

/-- Integer square root, rounded down. -/
def isqrt (n : Nat) : Nat := (List.range (n + 1)).foldl (fun a k => if k * k ≤ n then k else a) 0

/-- Power with an integer exponent. -/
def ratPow (x : Rat) (k : Int) : Rat := if 0 ≤ k then x ^ k.toNat else (x ^ (-k).toNat)⁻¹

/-- Square root, exact for squares of rational numbers. -/
def ratSqrt (x : Rat) : Rat := mkRat (isqrt x.num.toNat) (isqrt x.den)

/-- Exact arithmetic, where the result is a rational number. Roots are exact for squares, the exponents of powers are
multiples of one half; exponential function, logarithm, sine and cosine are not implemented. -/
def ratArith : Arith Rat where
  add := (· + ·)
  sub := (· - ·)
  mul := (· * ·)
  div := (· / ·)
  pow x y := if y.den = 1 then ratPow x y.num else ratPow (ratSqrt x) (2 * y).num
  neg := (- ·)
  abs x := if x < 0 then -x else x
  sqrt := ratSqrt
  exp x := x
  log x := x
  sin x := x
  cos x := x
  eq x y := decide (x = y)
  lt x y := decide (x < y)
  le x y := decide (x ≤ y)
  ofInt := fun n => (n : Rat)
  half := 1 / 2
  isInteger x := decide (x.den = 1)
  toInt x := if -2147483649 < x ∧ x < 2147483648 then some (x.num.tdiv x.den) else none
  isFinite _ := true
  lrint x :=
    let f := (x + 1 / 2).floor
    if (f : Rat) = x + 1 / 2 ∧ f % 2 = 1 then f - 1 else f

/-- Integer constants. -/
def ratNum (s : List Char) : Option Rat :=
  if s ≠ [] ∧ s.all Char.isDigit then some (s.foldl (fun a c => 10 * a + (c.toNat - 48 : Nat)) 0) else none

end VS.Expr
