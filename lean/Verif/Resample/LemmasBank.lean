import Verif.Resample.LemmasPipe

/-!
# The rate ratio, the length and the arguments
-/

namespace VS.Resample

set_option maxRecDepth 10000

open VS VS.Audio VS.Gain

theorem gcd64_eq (a b : Nat) : gcd64 a b = Nat.gcd a b := by
  induction a, b using gcd64.induct with
  | case1 a => rw [gcd64, dif_pos rfl, Nat.gcd_zero_right]
  | case2 a b h ih => rw [gcd64, dif_neg h, ih, Nat.gcd_comm b, ← Nat.gcd_rec, Nat.gcd_comm]

/-- The reduced ratio. -/
theorem reduced (I O : Nat) (hI : 0 < I) (hO : 0 < O) :
    0 < Nat.gcd I O ∧ 0 < O / Nat.gcd I O ∧ 0 < I / Nat.gcd I O ∧ O = Nat.gcd I O * (O / Nat.gcd I O) ∧ I = Nat.gcd I O * (I / Nat.gcd I O) := by
  have hg : 0 < Nat.gcd I O := Nat.gcd_pos_of_pos_left _ hI
  have h1 : Nat.gcd I O * (O / Nat.gcd I O) = O := Nat.mul_div_cancel' (Nat.gcd_dvd_right I O)
  have h2 : Nat.gcd I O * (I / Nat.gcd I O) = I := Nat.mul_div_cancel' (Nat.gcd_dvd_left I O)
  refine ⟨hg, ?_, ?_, h1.symm, h2.symm⟩
  · exact Nat.div_pos (Nat.le_of_dvd hO (Nat.gcd_dvd_right I O)) hg
  · exact Nat.div_pos (Nat.le_of_dvd hI (Nat.gcd_dvd_left I O)) hg

theorem rnd_inv (F : DFloats) (e : Nat) (he : e ≤ 1074) : F.rnd (1 / 2 ^ e) = 1 / 2 ^ e := by
  have := F.rnd_frac 1 e (by decide) he
  simpa using this

theorem rnd_nat (F : DFloats) (n : Nat) (hn : n ≤ 2 ^ 53) : F.rnd n = n := by
  have := F.rnd_frac (n : Int) 0 (by omega) (by omega)
  simpa using this

theorem ceil_ge {q : Rat} {n : Int} (h : (n : Rat) ≤ q) : n ≤ q.ceil := by
  have h2 : q ≤ (q.ceil : Int) := Rat.le_ceil
  have : (n : Rat) ≤ (q.ceil : Rat) := le_trans h h2
  exact_mod_cast this

theorem ceil_lt (q : Rat) : (q.ceil : Rat) < q + 1 := Rat.ceil_lt

theorem ceil_le {q : Rat} {n : Int} (h : q ≤ n) : q.ceil ≤ n := by
  have h2 := ceil_lt q
  have : (q.ceil : Rat) < n + 1 := by linarith
  have : (q.ceil : Int) < n + 1 := by exact_mod_cast this
  omega

/-- `halfTaps` before the conversion to `int`. -/
def halfOf (F : RFloats) (p q : Nat) : Int := (F.rnd (64 / min 1 (F.rnd ((p : Rat) / q)))).ceil

theorem buildBank_eq (F : RFloats) (I O : Nat) :
    buildBank F I O = (i32 (halfOf F (O / Nat.gcd I O) (I / Nat.gcd I O))).bind fun half =>
      (i32 (2 * half)).bind fun taps =>
        if taps > 8192 then .err "AudioResample: the sample rate ratio requires an impractically long filter, convert in several steps instead"
        else if ((O / Nat.gcd I O : Nat) : Int) * taps * 4 > 33554432 then
          .err "AudioResample: the sample rate ratio reduces to a fraction with too many phases to build a filter for"
        else .ok ⟨(O / Nat.gcd I O : Nat), (I / Nat.gcd I O : Nat), (I / Nat.gcd I O / (O / Nat.gcd I O) : Nat),
          (I / Nat.gcd I O % (O / Nat.gcd I O) : Nat), half, taps⟩ := by
  unfold buildBank
  simp only [Int.toNat_natCast]
  rw [gcd64_eq]
  have t1 : (O : Int).tdiv (Nat.gcd I O : Int) = ((O / Nat.gcd I O : Nat) : Int) := rfl
  have t2 : (I : Int).tdiv (Nat.gcd I O : Int) = ((I / Nat.gcd I O : Nat) : Int) := rfl
  rw [t1, t2]
  rfl

/-- What `halfTaps` is if the filter is not too long. -/
theorem half_ok (F : RFloats) (p q : Nat) (hp : 0 < p) (hq : 0 < q) (hqp : q ≤ 64 * p) :
    ∃ half : Nat, halfOf F p q = half ∧ 64 ≤ half ∧ half ≤ 4096 ∧ (half : Rat) < 64 * max 1 ((q : Rat) / p) + 3 / 2 ∧
      64 * max 1 ((q : Rat) / p) - 1 / 2 < half := by
  have hp' : (0 : Rat) < p := by exact_mod_cast hp
  have hq' : (0 : Rat) < q := by exact_mod_cast hq
  have r64 : F.rnd 64 = 64 := by have := rnd_nat F.toDFloats 64 (by norm_num); simpa using this
  have r4096 : F.rnd 4096 = 4096 := by have := rnd_nat F.toDFloats 4096 (by norm_num); simpa using this
  have r1 : F.rnd 1 = 1 := by have := rnd_nat F.toDFloats 1 (by norm_num); simpa using this
  unfold halfOf
  by_cases hle : q ≤ p
  · have hle' : (q : Rat) ≤ p := by exact_mod_cast hle
    have h1 : (1 : Rat) ≤ (p : Rat) / q := by rw [le_div_iff₀ hq']; linarith
    have h2 := F.rnd_mono _ _ h1
    rw [r1] at h2
    rw [min_eq_left h2, div_one, r64]
    have h3 : (q : Rat) / p ≤ 1 := by rw [div_le_one hp']; exact hle'
    rw [max_eq_left h3]
    refine ⟨64, ?_, by omega, by omega, by norm_num, by norm_num⟩
    rfl
  · have hlt' : (p : Rat) < q := by exact_mod_cast (by omega : p < q)
    have hqp' : (q : Rat) ≤ 64 * p := by exact_mod_cast hqp
    generalize hx : (p : Rat) / q = x
    have hx1 : x < 1 := by rw [← hx, div_lt_one hq']; exact hlt'
    have hx2 : 1 / 2 ^ 6 ≤ x := by rw [← hx, div_le_div_iff₀ (by norm_num) hq']; linarith
    have hT : (q : Rat) / p = 1 / x := by rw [← hx, one_div_div]
    have hT1 : (1 : Rat) ≤ 1 / x := by rw [le_div_iff₀ (by linarith)]; linarith
    rw [hT, max_eq_right hT1]
    have hr := F.rnd_close x
    have hrl := F.rnd_mono _ _ hx2
    rw [rnd_inv F.toDFloats 6 (by omega)] at hrl
    have hru := F.rnd_mono _ _ hx1.le
    rw [r1] at hru
    generalize F.rnd x = r at *
    rw [min_eq_right hru]
    have hr0 : 0 < r := lt_of_lt_of_le (by norm_num) hrl
    have hx0 : 0 < x := lt_of_lt_of_le (by norm_num) hx2
    have hy1 : 64 ≤ 64 / r := by rw [le_div_iff₀ hr0]; linarith
    have hy2 : 64 / r ≤ 4096 := by rw [div_le_iff₀ hr0]; linarith
    have hz := F.rnd_close (64 / r)
    have hzl := F.rnd_mono _ _ hy1
    have hzu := F.rnd_mono _ _ hy2
    rw [r64] at hzl
    rw [r4096] at hzu
    generalize F.rnd (64 / r) = z at *
    have small : (1 : Rat) / 2 ^ 1075 ≤ 1 / 2 ^ 59 := by
      apply one_div_le_one_div_of_le (by positivity)
      exact pow_le_1024 (by omega)
    generalize (1 : Rat) / 2 ^ 1075 = tiny at *
    rw [abs_of_pos hx0] at hr
    rw [abs_of_pos (by linarith : (0:Rat) < 64 / r)] at hz
    -- 64 / r is close to 64 / x
    have hyT : |64 / r - 64 * (1 / x)| ≤ 1 / 4 := by
      have e : 64 / r - 64 * (1 / x) = 64 * (x - r) / (r * x) := by field_simp
      rw [e, abs_div, abs_mul, abs_of_pos (by norm_num : (0 : Rat) < 64), abs_of_pos (mul_pos hr0 hx0), div_le_iff₀ (mul_pos hr0 hx0)]
      have h1 : |x - r| ≤ 1 / 2 ^ 50 := by
        rw [abs_sub_comm]
        have : x / 2 ^ 53 ≤ 1 / 2 ^ 53 := by apply div_le_div_of_nonneg_right hx1.le; positivity
        have : (1 : Rat) / 2 ^ 53 + 1 / 2 ^ 59 ≤ 1 / 2 ^ 50 := by norm_num
        linarith
      have h2 : 1 / 2 ^ 6 * (1 / 2 ^ 6) ≤ r * x := mul_le_mul hrl hx2 (by positivity) hr0.le
      have h3 : (64 : Rat) * (1 / 2 ^ 50) ≤ 1 / 4 * (1 / 2 ^ 6 * (1 / 2 ^ 6)) := by norm_num
      linarith
    have hzT : |z - 64 / r| ≤ 1 / 8 := by
      have : 64 / r / 2 ^ 53 ≤ 4096 / 2 ^ 53 := by apply div_le_div_of_nonneg_right hy2; positivity
      have : (4096 : Rat) / 2 ^ 53 + 1 / 2 ^ 59 ≤ 1 / 8 := by norm_num
      linarith
    have a1 := abs_le.1 hyT
    have a2 := abs_le.1 hzT
    have c1 := ceil_lt z
    have c2 : z ≤ (z.ceil : Int) := Rat.le_ceil
    have c3 : (64 : Int) ≤ z.ceil := ceil_ge (by exact_mod_cast hzl)
    have c4 : z.ceil ≤ (4096 : Int) := ceil_le (by exact_mod_cast hzu)
    obtain ⟨h, hh⟩ : ∃ h : Nat, z.ceil = h := ⟨z.ceil.toNat, by omega⟩
    rw [hh] at c1 c2 c3 c4 ⊢
    have c1 : (h : Rat) < z + 1 := by exact_mod_cast c1
    have c2 : z ≤ (h : Rat) := by exact_mod_cast c2
    refine ⟨h, rfl, by omega, by omega, by linarith, by linarith⟩

/-- The ratio is accepted. -/
theorem bank_ok (F : RFloats) (I O : Nat) (hI : 0 < I) (hO : 0 < O)
    (hqp : I ≤ 64 * O) (hph : 64 * max (I / Nat.gcd I O) (O / Nat.gcd I O) + 2 * (O / Nat.gcd I O) ≤ 2 ^ 22) :
    ∃ half, Spec.Ratio F I O (O / Nat.gcd I O) (I / Nat.gcd I O) half ∧
      buildBank F I O = .ok (bankOf (O / Nat.gcd I O) (I / Nat.gcd I O) half) := by
  obtain ⟨hg, hp, hq, eO, eI⟩ := reduced I O hI hO
  rw [buildBank_eq F I O]
  have hrat : (I : Rat) / O = ((I / Nat.gcd I O : Nat) : Rat) / ((O / Nat.gcd I O : Nat) : Rat) := by
    have h1 : (I : Rat) = (Nat.gcd I O : Rat) * ((I / Nat.gcd I O : Nat) : Rat) := by exact_mod_cast eI
    have h2 : (O : Rat) = (Nat.gcd I O : Rat) * ((O / Nat.gcd I O : Nat) : Rat) := by exact_mod_cast eO
    have h3 : (Nat.gcd I O : Rat) ≠ 0 := by exact_mod_cast hg.ne'
    calc (I : Rat) / O = ((Nat.gcd I O : Rat) * ((I / Nat.gcd I O : Nat) : Rat)) / ((Nat.gcd I O : Rat) * ((O / Nat.gcd I O : Nat) : Rat)) := by
          rw [← h1, ← h2]
      _ = _ := mul_div_mul_left _ _ h3
  have hqp' : I / Nat.gcd I O ≤ 64 * (O / Nat.gcd I O) := by
    have : Nat.gcd I O * (I / Nat.gcd I O) ≤ Nat.gcd I O * (64 * (O / Nat.gcd I O)) := by
      rw [← eI, Nat.mul_left_comm, ← eO]; exact hqp
    exact Nat.le_of_mul_le_mul_left this hg
  obtain ⟨half, h1, h2, h3, h4, h5⟩ := half_ok F _ _ hp hq hqp'
  generalize hP : O / Nat.gcd I O = p at *
  generalize hQ : I / Nat.gcd I O = q at *
  have hp' : (0 : Rat) < p := by exact_mod_cast hp
  have hbank : p * half ≤ 2 ^ 22 := by
    have e1 : (p : Rat) * half ≤ p * (64 * max 1 ((q : Rat) / p) + 2) := by
      apply mul_le_mul_of_nonneg_left _ hp'.le
      linarith
    have e2 : (p : Rat) * (64 * max 1 ((q : Rat) / p) + 2) = 64 * max (q : Rat) p + 2 * p := by
      have : (p : Rat) * max 1 ((q : Rat) / p) = max (q : Rat) p := by
        rw [mul_max_of_nonneg _ _ hp'.le, mul_one, mul_div_cancel₀ _ hp'.ne', max_comm]
      linarith
    have e3 : (64 : Rat) * max (q : Rat) p + 2 * p ≤ 2 ^ 22 := by exact_mod_cast hph
    have : (p : Rat) * half ≤ 2 ^ 22 := by linarith
    exact_mod_cast this
  refine ⟨half, ⟨hP.symm, hQ.symm, ?_, h2, h3, hbank⟩, ?_⟩
  · rw [hrat, abs_lt]
    constructor <;> linarith
  · rw [h1, i32_ok (by unfold InI32 INT_MAX INT_MIN; omega)]
    show Res.bind (i32 _) _ = _
    rw [i32_ok (by unfold InI32 INT_MAX INT_MIN; omega)]
    show (if _ then _ else _) = _
    have hbank' : (p : Int) * half ≤ 2 ^ 22 := by exact_mod_cast hbank
    have e : (p : Int) * (2 * half) * 4 = 8 * ((p : Int) * half) := by ring
    rw [if_neg (by omega), if_neg (by rw [e]; omega)]
    unfold bankOf
    push_cast
    rfl

/-- The filter would be too long. -/
theorem bank_long (F : RFloats) (I O : Nat) (hI : 0 < I) (hO : 0 < O) (hI2 : I < 2 ^ 31) (h1 : 64 * O < I) (h2 : I ≤ 2 ^ 23 * O) :
    buildBank F I O = .err "AudioResample: the sample rate ratio requires an impractically long filter, convert in several steps instead" := by
  obtain ⟨hg, hp, hq, eO, eI⟩ := reduced I O hI hO
  rw [buildBank_eq F I O]
  have k1 : 64 * (O / Nat.gcd I O) < I / Nat.gcd I O := by
    have : Nat.gcd I O * (64 * (O / Nat.gcd I O)) < Nat.gcd I O * (I / Nat.gcd I O) := by
      rw [← eI, Nat.mul_left_comm, ← eO]; exact h1
    exact Nat.lt_of_mul_lt_mul_left this
  have k2 : I / Nat.gcd I O ≤ 2 ^ 23 * (O / Nat.gcd I O) := by
    have : Nat.gcd I O * (I / Nat.gcd I O) ≤ Nat.gcd I O * (2 ^ 23 * (O / Nat.gcd I O)) := by
      rw [← eI, Nat.mul_left_comm, ← eO]; exact h2
    exact Nat.le_of_mul_le_mul_left this hg
  have k3 : I / Nat.gcd I O < 2 ^ 31 := lt_of_le_of_lt (Nat.div_le_self _ _) hI2
  generalize O / Nat.gcd I O = p at *
  generalize I / Nat.gcd I O = q at *
  have hp' : (0 : Rat) < p := by exact_mod_cast hp
  have hq' : (0 : Rat) < q := by exact_mod_cast hq
  -- the quotient is at least 2^-37 below 1/64
  have x1 : (p : Rat) / q ≤ ((2 ^ 31 - 1 : Int) : Rat) / 2 ^ 37 := by
    rw [div_le_div_iff₀ hq' (by positivity)]
    have n1 : p * 137438953472 ≤ 2147483647 * q := by omega
    have : (p : Rat) * 137438953472 ≤ 2147483647 * q := by exact_mod_cast n1
    norm_num
    exact this
  have x2 : 1 / 2 ^ 23 ≤ (p : Rat) / q := by
    rw [div_le_div_iff₀ (by positivity) hq']
    have : (q : Rat) ≤ 2 ^ 23 * p := by exact_mod_cast k2
    linarith
  have y1 := F.rnd_mono _ _ x1
  rw [F.rnd_frac _ 37 (by norm_num) (by omega)] at y1
  have y2 := F.rnd_mono _ _ x2
  rw [rnd_inv F.toDFloats 23 (by omega)] at y2
  have hbound : 4097 ≤ halfOf F p q ∧ halfOf F p q ≤ 2 ^ 29 := by
    unfold halfOf
    generalize F.rnd ((p : Rat) / q) = r at *
    have hr0 : 0 < r := lt_of_lt_of_le (by positivity) y2
    have hr1 : r ≤ 1 := le_trans y1 (by norm_num)
    rw [min_eq_right hr1]
    have z1 : ((4096 * 2 ^ 19 + 1 : Int) : Rat) / 2 ^ 19 ≤ 64 / r := by
      rw [div_le_div_iff₀ (by positivity) hr0]
      have : ((4096 * 2 ^ 19 + 1 : Int) : Rat) * r ≤ ((4096 * 2 ^ 19 + 1 : Int) : Rat) * (((2 ^ 31 - 1 : Int) : Rat) / 2 ^ 37) :=
        mul_le_mul_of_nonneg_left y1 (by norm_num)
      refine le_trans this ?_
      norm_num
    have z2 : 64 / r ≤ ((2 ^ 29 : Nat) : Rat) := by
      rw [div_le_iff₀ hr0]
      have := mul_le_mul_of_nonneg_left y2 (show (0 : Rat) ≤ ((2 ^ 29 : Nat) : Rat) by norm_num)
      refine le_trans ?_ this
      norm_num
    have w1 := F.rnd_mono _ _ z1
    rw [F.rnd_frac _ 19 (by norm_num) (by omega)] at w1
    have w2 := F.rnd_mono _ _ z2
    rw [rnd_nat F.toDFloats _ (by norm_num)] at w2
    constructor
    · have c2 : F.rnd (64 / r) ≤ ((F.rnd (64 / r)).ceil : Int) := Rat.le_ceil
      have : (4096 : Rat) < ((F.rnd (64 / r)).ceil : Int) := lt_of_lt_of_le (lt_of_lt_of_le (by norm_num) w1) c2
      have : (4096 : Int) < (F.rnd (64 / r)).ceil := by exact_mod_cast this
      omega
    · exact ceil_le (by push_cast at w2 ⊢; exact w2)
  rw [i32_ok (by unfold InI32 INT_MAX INT_MIN; omega)]
  show Res.bind (i32 _) _ = _
  rw [i32_ok (by unfold InI32 INT_MAX INT_MIN; omega)]
  show (if _ then _ else _) = _
  rw [if_pos (by omega)]

/-- The number of coefficients is not an `int`. -/
theorem bank_ub (F : RFloats) (I O : Nat) (hI : 0 < I) (hO : 0 < O) (hI2 : I < 2 ^ 31) (h1 : 2 ^ 26 * O ≤ I) : buildBank F I O = .ub := by
  obtain ⟨hg, hp, hq, eO, eI⟩ := reduced I O hI hO
  rw [buildBank_eq F I O]
  have k1 : 2 ^ 26 * (O / Nat.gcd I O) ≤ I / Nat.gcd I O := by
    have : Nat.gcd I O * (2 ^ 26 * (O / Nat.gcd I O)) ≤ Nat.gcd I O * (I / Nat.gcd I O) := by
      rw [← eI, Nat.mul_left_comm, ← eO]; exact h1
    exact Nat.le_of_mul_le_mul_left this hg
  have k3 : I / Nat.gcd I O < 2 ^ 31 := lt_of_le_of_lt (Nat.div_le_self _ _) hI2
  generalize O / Nat.gcd I O = p at *
  generalize I / Nat.gcd I O = q at *
  have hp' : (0 : Rat) < p := by exact_mod_cast hp
  have hq' : (0 : Rat) < q := by exact_mod_cast hq
  have x1 : (p : Rat) / q ≤ 1 / 2 ^ 26 := by
    rw [div_le_div_iff₀ hq' (by positivity)]
    have : 2 ^ 26 * (p : Rat) ≤ q := by exact_mod_cast k1
    linarith
  have x2 : 1 / 2 ^ 31 ≤ (p : Rat) / q := by
    rw [div_le_div_iff₀ (by positivity) hq']
    have : (q : Rat) < 2 ^ 31 := by exact_mod_cast k3
    have : (1 : Rat) ≤ p := by exact_mod_cast hp
    nlinarith
  have y1 := F.rnd_mono _ _ x1
  rw [rnd_inv F.toDFloats 26 (by omega)] at y1
  have y2 := F.rnd_mono _ _ x2
  rw [rnd_inv F.toDFloats 31 (by omega)] at y2
  have hbound : 2 ^ 31 ≤ halfOf F p q := by
    unfold halfOf
    generalize F.rnd ((p : Rat) / q) = r at *
    have hr0 : 0 < r := lt_of_lt_of_le (by positivity) y2
    have hr1 : r ≤ 1 := le_trans y1 (by norm_num)
    rw [min_eq_right hr1]
    have z1 : ((2 ^ 31 : Nat) : Rat) ≤ 64 / r := by
      rw [le_div_iff₀ hr0]
      have := mul_le_mul_of_nonneg_left y1 (show (0 : Rat) ≤ ((2 ^ 31 : Nat) : Rat) by norm_num)
      refine le_trans this ?_
      norm_num
    have w1 := F.rnd_mono _ _ z1
    rw [rnd_nat F.toDFloats _ (by norm_num)] at w1
    exact ceil_ge (by push_cast at w1 ⊢; exact w1)
  rw [i32_ub (by unfold InI32 INT_MAX INT_MIN; omega)]
  rfl

/-! ## Length -/

theorem outCount_eq (I O N p q g : Nat) (hg : 0 < g) (hq : 0 < q) (eO : O = g * p) (eI : I = g * q) :
    Spec.outCount I O N = (N * p + q - 1) / q := by
  unfold Spec.outCount
  rw [eO, eI]
  have h1 : N * (g * p) = g * (N * p) := Nat.mul_left_comm N g p
  rw [h1]
  generalize N * p = a
  have h2 : g * a + g * q - 1 = (g - 1) + g * (a + q - 1) := by
    have : g * (a + q) = g * a + g * q := Nat.mul_add g a q
    have h3 : g * (a + q - 1) = g * (a + q) - g := by rw [Nat.mul_sub, Nat.mul_one]
    have : g * 1 ≤ g * (a + q) := Nat.mul_le_mul_left g (by omega)
    omega
  rw [h2, ← Nat.div_div_eq_div_mul, Nat.add_mul_div_left _ _ hg, Nat.div_eq_of_lt (show g - 1 < g by omega), Nat.zero_add]

theorem out_ok (N p q half : Nat) (hN : 1 ≤ N) (hNmax : (N : Int) ≤ MAX_SAMPLES) (hp : 0 < p) (hp2 : p ≤ 65536) (hq : 0 < q) (hq2 : q < 2 ^ 32) :
    1 ≤ (N * p + q - 1) / q ∧ (N * p + q - 1) / q * q < N * p + q ∧
    (((((N * p + q - 1) / q : Nat) : Int) ≤ MAX_SAMPLES) → outSamples (bankOf p q half) N = .ok (((N * p + q - 1) / q : Nat) : Int)) ∧
    ((((N * p + q - 1) / q : Nat) : Int) > MAX_SAMPLES → outSamples (bankOf p q half) N = .err "AudioResample: the resampled clip length is out of range") := by
  unfold MAX_SAMPLES SAMPLES INT_MAX at *
  have hNp : N * p ≤ 8796093022208 * 65536 := Nat.mul_le_mul (by omega) hp2
  have hNp1 : 1 * 1 ≤ N * p := Nat.mul_le_mul hN hp
  have hm1 : 1 ≤ (N * p + q - 1) / q := Nat.div_pos (by omega) hq
  have hm2 := Nat.div_mul_le_self (N * p + q - 1) q
  have key : outSamples (bankOf p q half) N = (if (((N * p + q - 1) / q : Nat) : Int) < 1 ∨ (((N * p + q - 1) / q : Nat) : Int) > INT_MAX * SAMPLES then
      .err "AudioResample: the resampled clip length is out of range" else .ok (((N * p + q - 1) / q : Nat) : Int)) := by
    unfold outSamples bankOf
    simp only
    have hcond : ¬ ((N : Int) > (INT64_MAX - (q : Int) + 1).tdiv (p : Int)) := by
      unfold INT64_MAX
      rw [Int.tdiv_eq_ediv_of_nonneg (by omega), gt_iff_lt, not_lt, Int.le_ediv_iff_mul_le (by omega)]
      have : ((N * p : Nat) : Int) = (N : Int) * p := by push_cast; rfl
      rw [← this]; omega
    rw [if_neg hcond]
    have e : (N : Int) * p = ((N * p : Nat) : Int) := by push_cast; rfl
    rw [e, i64_ok (by unfold InI64 INT64_MAX INT64_MIN; omega)]
    simp only [Res.bind_ok]
    rw [i64_ok (by unfold InI64 INT64_MAX INT64_MIN; omega)]
    simp only [Res.bind_ok]
    have t : ((((N * p : Nat) : Int) + (q : Int) - 1).tdiv (q : Int)) = (((N * p + q - 1) / q : Nat) : Int) := by
      rw [show ((N * p : Nat) : Int) + (q : Int) - 1 = ((N * p + q - 1 : Nat) : Int) by omega]
      rfl
    rw [t]
    rfl
  refine ⟨hm1, by omega, ?_, ?_⟩
  · intro h
    rw [key, if_neg (by unfold INT_MAX SAMPLES; omega)]
  · intro h
    rw [key, if_pos (by unfold INT_MAX SAMPLES; omega)]

end VS.Resample
