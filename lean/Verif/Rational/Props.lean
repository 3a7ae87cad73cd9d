import Verif.Rational.Lemmas

/-!
# C22: rational helpers compute exactly and reduce

The specification is arithmetic on `Rat`, Lean's type of reduced fractions: `q.num`/`q.den` is the
unique representation of `q` with a positive denominator and no common factor.
-/

namespace VS

/-- No 64 bit overflow, and not the one value that has no 64 bit negation. -/
def Fits (x : Int) : Prop := INT64_MIN < x ∧ x ≤ INT64_MAX

instance (x : Int) : Decidable (Fits x) := inferInstanceAs (Decidable (_ ∧ _))

/-- C22. When the two products fit, `muldivRational` returns the reduced form of
`(num/den) * (mul/div)`; a negative combined denominator keeps its sign. -/
theorem C22_muldivRational (num den mul div : Int) (hden : den ≠ 0) (hdiv : div ≠ 0)
    (h1 : Fits (num * mul)) (h2 : Fits (den * div)) :
    let q : Rat := ((num : Rat) / den) * ((mul : Rat) / div)
    let s : Int := (den * div).sign
    muldivRational num den mul div = .ok (s * q.num, s * (q.den : Int)) := by
  intro q s
  have hD : den * div ≠ 0 := Int.mul_ne_zero hden hdiv
  obtain ⟨g, e, hg, hgm⟩ := gcdLoop_spec (num * mul) (den * div) h1.1 h2.1
  have hq : q = Rat.divInt (num * mul) (den * div) := by
    simp only [q, ← Rat.divInt_eq_div, Rat.divInt_mul_divInt]
  have hgle : (Int.gcd (num * mul) (den * div) : Int) ≤ INT64_MAX := by
    have := Int.gcd_le_natAbs_right (num * mul) (b := den * div) hD
    have h := h2
    simp only [Fits, INT64_MIN, INT64_MAX] at *
    omega
  have ha : makePositive g = .ok ((Int.gcd (num * mul) (den * div) : Nat) : Int) := by
    unfold makePositive; split
    · rw [i64_ok]
      · congr 1; omega
      · simp only [InI64, INT64_MIN, INT64_MAX] at *; omega
    · congr 1; omega
  have i1 : InI64 (num * mul) := ⟨Int.le_of_lt h1.1, h1.2⟩
  have i2 : InI64 (den * div) := ⟨Int.le_of_lt h2.1, h2.2⟩
  simp only [muldivRational, hden, hdiv, if_false, i64_ok i1, i64_ok i2, Res.bind_ok, e, ha,
    Res.pure_eq, tdiv_gcd_num hD, tdiv_gcd_den hD, hq, s]

/-- A frame duration 1001/24000 slowed down by 3/2. -/
example : muldivRational 1001 24000 3 2 = .ok (1001, 16000) := by
  have := C22_muldivRational 1001 24000 3 2 (by decide) (by decide) (by decide) (by decide)
  simpa using this.trans (by decide +kernel)

/-- C22, reduction alone: `reduceRational` gives lowest terms. -/
theorem C22_reduceRational (num den : Int) (hden : den ≠ 0) (h1 : Fits num) (h2 : Fits den) :
    let q : Rat := (num : Rat) / den
    reduceRational num den = .ok (den.sign * q.num, den.sign * (q.den : Int)) := by
  have := C22_muldivRational num den 1 1 hden (by decide) (by simpa using h1) (by simpa using h2)
  have e1 : ((1 : Int) : Rat) / ((1 : Int) : Rat) = 1 := by decide +kernel
  simpa only [Int.mul_one, e1, Rat.mul_one, reduceRational] using this

example : Fits 6 ∧ Fits (-4) ∧ reduceRational 6 (-4) = .ok (3, -2) := by decide +kernel

/-- C22, the invalid rational is left alone: a zero denominator is never changed. -/
theorem C22_zero_den (num mul div : Int) : muldivRational num 0 mul div = .ok (num, 0) := by
  simp [muldivRational]

/-- C22, what happens outside the proviso: if a product leaves the 64 bit range the call is undefined. -/
theorem C22_muldiv_overflow (num den mul div : Int) (hden : den ≠ 0) (hdiv : div ≠ 0)
    (h : ¬ InI64 (num * mul) ∨ ¬ InI64 (den * div)) :
    muldivRational num den mul div = .ub := by
  by_cases h1 : InI64 (num * mul)
  · have h2 : ¬ InI64 (den * div) := by rcases h with h | h; exact absurd h1 h; exact h
    simp [muldivRational, hden, hdiv, i64_ok h1, i64_ub h2]
  · simp [muldivRational, hden, hdiv, i64_ub h1]

example : muldivRational INT64_MAX 1 2 1 = .ub := by decide +kernel

/-- C22, `addRational` with different denominators: the reduced sum, when all products fit. -/
theorem C22_addRational_partial (num den addnum addden : Int) (hden : den ≠ 0) (hadd : addden ≠ 0)
    (hne : den ≠ addden)
    (h1 : InI64 (addnum * den)) (h2 : InI64 (num * addden))
    (h3 : Fits (den * addden)) (h4 : Fits (num * addden + addnum * den)) :
    let q : Rat := (num : Rat) / den + (addnum : Rat) / addden
    let s : Int := (den * addden).sign
    addRational num den addnum addden = .ok (s * q.num, s * (q.den : Int)) := by
  intro q s
  have hD : den * addden ≠ 0 := Int.mul_ne_zero hden hadd
  have i3 : InI64 (den * addden) := ⟨Int.le_of_lt h3.1, h3.2⟩
  have i3' : InI64 (addden * den) := by rwa [Int.mul_comm]
  have i4 : InI64 (num * addden + addnum * den) := ⟨Int.le_of_lt h4.1, h4.2⟩
  have hr := C22_reduceRational (num * addden + addnum * den) (den * addden) hD h4 h3
  have hq : q = ((num * addden + addnum * den : Int) : Rat) / ((den * addden : Int) : Rat) := by
    simp only [q, ← Rat.divInt_eq_div, Rat.divInt_add_divInt _ _ hden hadd]
  simp only [addRational, hden, hadd, hne, if_false, i64_ok h1, i64_ok i3', i64_ok h2, i64_ok i3,
    i64_ok i4, Res.bind_ok, hr, hq, s]

example : addRational 1 24 1 30 = .ok (3, 40) := by decide +kernel

/-- C22, `addRational` with equal denominators adds exactly but the result is *not* reduced. -/
theorem C22_addRational_sameDen_partial (num den addnum : Int) (hden : den ≠ 0)
    (h : InI64 (num + addnum)) :
    addRational num den addnum den = .ok (num + addnum, den) ∧
    ((num + addnum : Int) : Rat) / (den : Rat) = (num : Rat) / den + (addnum : Rat) / den := by
  constructor
  · simp [addRational, hden, i64_ok h]
  · simp only [Rat.div_def, ← Rat.add_mul, Rat.intCast_add]

/-- C22 is violated by `addRational`: its documentation promises a reduced result, but adding two
rationals with the same denominator is not reduced.  Witness: 1/4 + 1/4 gives 2/4. -/
theorem C22_addRational_not_reduced :
    addRational 1 4 1 4 = .ok (2, 4) ∧ ((1 : Rat) / 4 + 1 / 4).num = 1 ∧ ((1 : Rat) / 4 + 1 / 4).den = 2 := by
  decide +kernel

/-- C22, a further edge of the code: reducing `INT64_MIN / -1` is undefined (`INT64_MIN % -1`). -/
theorem C22_reduce_min_ub : reduceRational INT64_MIN (-1) = .ub := by decide +kernel

end VS
