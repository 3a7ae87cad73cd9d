import Verif.Base.C

/-!
# Conversion between half and single precision

Model of src/core/float16_helper.h: the variant without hardware support, lines 44-61 and 69-94. Numbers are given by their
bits. Single precision subtraction and multiplication are those of IEEE 754 with rounding to the nearest number, ties to
even, for numbers that are not negative; subnormal numbers are not flushed to zero.
-/

namespace VS.Half

/-- The value of the bits `b` of a number that is not negative, with `p` bits for the fraction, in units of the smallest
subnormal number: exponent 0 stands for subnormal numbers, otherwise there is an implicit leading one. -/
def mag (p b : Nat) : Nat := if b / 2 ^ p = 0 then b else (2 ^ p + b % 2 ^ p) * 2 ^ (b / 2 ^ p - 1)

/-- `n / 2 ^ k` rounded to an integer, ties to even. -/
def tiesEven (n k : Nat) : Nat :=
  let q := n / 2 ^ k
  if 2 * (n % 2 ^ k) < 2 ^ k then q
  else if 2 * (n % 2 ^ k) > 2 ^ k then q + 1
  else if q % 2 = 0 then q else q + 1

/-- The single precision number next to `n / 2 ^ k` units of 2^-149. The significand has 24 bits unless the number is
subnormal; `s` is the number of bits it is shifted. A significand of 2^24 carries into the exponent. -/
def round32 (n k : Nat) : Nat :=
  let s := if n < 2 ^ (24 + k) then 0 else Nat.log2 n - k - 23
  min (tiesEven n (k + s) + s * 2 ^ 23) (255 * 2 ^ 23)

/-- `a - b` for `a ≥ b`, both finite. -/
def sub32 (a b : Nat) : Nat := round32 (mag 23 a - mag 23 b) 0

/-- `a * b`, both finite and not negative: the product is in units of 2^-298. -/
def mul32 (a b : Nat) : Nat := round32 (mag 23 a * mag 23 b) 149

/-- `halfToFloat`, float16_helper.h:40-62. -/
def halfToFloat (h : Nat) : Nat :=
  let magic := 113 <<< 23
  let shiftedExp := 0x7C00 <<< 13
  let f := (h &&& 0x7FFF) <<< 13
  let exp := f &&& shiftedExp
  let f := (f + (127 - 15) <<< 23) % 2 ^ 32
  let f :=
    if exp = shiftedExp then (f + (128 - 16) <<< 23) % 2 ^ 32
    else if exp = 0 then sub32 ((f + 1 <<< 23) % 2 ^ 32) magic
    else f
  f ||| (h &&& 0x8000) <<< 16

/-- `floatToHalf`, float16_helper.h:64-94. -/
def floatToHalf (x : Nat) : Nat :=
  let magic := 15 <<< 23
  let inf := 255 <<< 23
  let f16inf := 31 <<< 23
  let roundMask := 0xFFFFF000
  let sign := x &&& 0x80000000
  let f := x ^^^ sign
  let ret :=
    if f ≥ inf then (if f > inf then 0x7E00 else 0x7C00)
    else
      let f := f &&& roundMask
      let f := mul32 f magic
      let f := (f + (2 ^ 32 - roundMask)) % 2 ^ 32
      let f := if f > f16inf then f16inf else f
      (f >>> 13) % 2 ^ 16
  ret ||| sign >>> 16

/-- `isInfHalf`, float16_helper.h:96-100. -/
def isInfHalf (v : Nat) : Bool := decide (v &&& 0x7C00 = 0x7C00)

end VS.Half
