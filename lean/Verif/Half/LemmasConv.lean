import Verif.Half.Lemmas

/-! # Facts about the conversions -/

namespace VS.Half

/-- `floatToHalf` without the sign. -/
def narrow (f : Nat) : Nat :=
  if f ≥ 255 * 2 ^ 23 then (if f > 255 * 2 ^ 23 then 0x7E00 else 0x7C00)
  else min (mul32 (f / 2 ^ 12 * 2 ^ 12) (15 * 2 ^ 23) + 2 ^ 12) (31 * 2 ^ 23) / 2 ^ 13

theorem narrow_lt (f : Nat) : narrow f < 2 ^ 15 := by
  unfold narrow
  split
  · split <;> norm_num
  · omega

theorem mul32_le (a b : Nat) : mul32 a b ≤ 255 * 2 ^ 23 := by
  unfold mul32 round32
  exact Nat.min_le_right _ _

theorem floatToHalf_eq {s f : Nat} (hs : s < 2) (hf : f < 2 ^ 31) :
    floatToHalf (s * 2 ^ 31 + f) = s * 2 ^ 15 + narrow f := by
  have e1 : (s * 2 ^ 31 + f) &&& 0x80000000 = s * 2 ^ 31 := and_sign s f 31 hf hs
  have e2 : (s * 2 ^ 31 + f) ^^^ (s * 2 ^ 31) = f := xor_sign s f 31 hf
  have e3 : (s * 2 ^ 31) >>> 16 = s * 2 ^ 15 := by
    rw [Nat.shiftRight_eq_div_pow]; omega
  have e4 : f &&& 0xFFFFF000 = f / 2 ^ 12 * 2 ^ 12 := and_round (by omega)
  have e5 : (255 <<< 23 : Nat) = 255 * 2 ^ 23 := by decide
  have e6 : (15 <<< 23 : Nat) = 15 * 2 ^ 23 := by decide
  have e7 : (31 <<< 23 : Nat) = 31 * 2 ^ 23 := by decide
  unfold floatToHalf
  simp only [e1, e2, e3, e4, e5, e6, e7]
  rw [or_sign _ _ _ _]
  · congr 1
    unfold narrow
    by_cases h : f ≥ 255 * 2 ^ 23
    · simp only [if_pos h]
    · simp only [if_neg h]
      have := mul32_le (f / 2 ^ 12 * 2 ^ 12) (15 * 2 ^ 23)
      generalize mul32 (f / 2 ^ 12 * 2 ^ 12) (15 * 2 ^ 23) = q at *
      rw [Nat.shiftRight_eq_div_pow]
      have e8 : (q + (2 ^ 32 - 4294963200)) % 2 ^ 32 = q + 2 ^ 12 := by
        rw [show (2 ^ 32 - 4294963200 : Nat) = 2 ^ 12 by norm_num]
        exact Nat.mod_eq_of_lt (by omega)
      rw [e8]
      clear * - this
      split
      · rw [Nat.min_eq_right (by omega)]
        norm_num
      · rw [Nat.min_eq_left (by omega)]
        exact Nat.mod_eq_of_lt (by omega)
  · by_cases h : f ≥ 255 * 2 ^ 23
    · simp only [if_pos h]
      split <;> norm_num
    · simp only [if_neg h]
      have := mul32_le (f / 2 ^ 12 * 2 ^ 12) (15 * 2 ^ 23)
      generalize mul32 (f / 2 ^ 12 * 2 ^ 12) (15 * 2 ^ 23) = q at *
      rw [Nat.shiftRight_eq_div_pow]
      split <;> omega

theorem mag_magic : mag 23 (15 * 2 ^ 23) = 2 ^ 37 := by
  have := mag_normal (p := 23) (e := 14) (m := 0) (by norm_num)
  rw [Nat.add_zero] at this
  rw [this]; norm_num

/-- The product for numbers that are normal in half precision. -/
theorem mul_normal {g : Nat} (h1 : 2 ^ 23 ≤ g) (h2 : g < 143 * 2 ^ 23) : mul32 (g + 112 * 2 ^ 23) (15 * 2 ^ 23) = g := by
  unfold mul32
  rw [mag_shift 23 g 112 h1, mag_magic, Nat.mul_assoc, ← pow_add]
  exact round32_exact (by omega) 149

/-- The result is the number between the middles to its neighbours. -/
structure Between (f h : Nat) : Prop where
  le : h ≤ 0x7C00
  lower : 0 < h → (mag 10 (h - 1) + mag 10 h) * 2 ^ 124 ≤ mag 23 f
  upper : h < 0x7C00 → mag 23 f < (mag 10 h + mag 10 (h + 1)) * 2 ^ 124

theorem lower_of {f0 h : Nat} (hh : 0 < h) (h1 : h * 2 ^ 13 ≤ f0 + 2 ^ 12) :
    (mag 10 (h - 1) + mag 10 h) * 2 ^ 12 ≤ mag 23 f0 := by
  obtain ⟨k, rfl⟩ : ∃ k, h = k + 1 := ⟨h - 1, by omega⟩
  have h2 : k * 2 ^ 13 + 2 ^ 12 ≤ f0 := by omega
  rw [Nat.add_sub_cancel, ← mag_mid13 k]
  exact mag_le h2

theorem upper_of {f0 h : Nat} (h1 : f0 < h * 2 ^ 13 + 2 ^ 12) :
    mag 23 f0 < (mag 10 h + mag 10 (h + 1)) * 2 ^ 12 := by
  rw [← mag_mid13 h]
  exact mag_lt h1

theorem pow124 (a : Nat) : a * 2 ^ 124 = a * 2 ^ 12 * 2 ^ 112 := by rw [Nat.mul_assoc, ← pow_add]

theorem between_normal {f : Nat} (h1 : 113 * 2 ^ 23 ≤ f) (h2 : f < 255 * 2 ^ 23) : Between f (narrow f) := by
  obtain ⟨f0, rfl⟩ : ∃ f0, f = f0 + 112 * 2 ^ 23 := ⟨f - 112 * 2 ^ 23, by omega⟩
  have e1 : (f0 + 112 * 2 ^ 23) / 2 ^ 12 * 2 ^ 12 = f0 / 2 ^ 12 * 2 ^ 12 + 112 * 2 ^ 23 := by omega
  have e2 : narrow (f0 + 112 * 2 ^ 23) = min (f0 / 2 ^ 12 * 2 ^ 12 + 2 ^ 12) (31 * 2 ^ 23) / 2 ^ 13 := by
    unfold narrow
    rw [if_neg (by omega), e1, mul_normal (by omega) (by omega)]
  have e3 : mag 23 (f0 + 112 * 2 ^ 23) = mag 23 f0 * 2 ^ 112 := mag_shift 23 f0 112 (by omega)
  have hp : 0 < 2 ^ 112 := Nat.two_pow_pos 112
  rw [e2]
  have a1 : ∀ h, h = min (f0 / 2 ^ 12 * 2 ^ 12 + 2 ^ 12) (31 * 2 ^ 23) / 2 ^ 13 →
      h ≤ 0x7C00 ∧ h * 2 ^ 13 ≤ f0 + 2 ^ 12 ∧ (h < 0x7C00 → f0 < h * 2 ^ 13 + 2 ^ 12) := by
    clear * -
    intro h e
    omega
  obtain ⟨a2, a3, a4⟩ := a1 _ rfl
  refine ⟨a2, fun hh => ?_, fun hh => ?_⟩
  · rw [e3, pow124]
    exact Nat.mul_le_mul_right _ (lower_of hh a3)
  · rw [e3, pow124]
    exact Nat.mul_lt_mul_of_pos_right (upper_of (a4 hh)) hp

theorem mag10_small {h : Nat} (hh : h ≤ 2 ^ 10 + 1) : mag 10 h = h := mag_small (by omega)

/-- Numbers that are subnormal in half precision, but not too small. -/
theorem between_sub {f : Nat} (h1 : 101 * 2 ^ 23 ≤ f) (h2 : f < 113 * 2 ^ 23) : Between f (narrow f) := by
  obtain ⟨d, m, hd, hm, rfl⟩ : ∃ d m, d < 12 ∧ m < 2 ^ 23 ∧ f = (d + 100 + 1) * 2 ^ 23 + m :=
    ⟨f / 2 ^ 23 - 101, f % 2 ^ 23, by omega, Nat.mod_lt _ (by norm_num), by omega⟩
  have e1 : ((d + 100 + 1) * 2 ^ 23 + m) / 2 ^ 12 * 2 ^ 12 = (d + 100 + 1) * 2 ^ 23 + m / 2 ^ 12 * 2 ^ 12 := by omega
  have e2 : mag 23 ((d + 100 + 1) * 2 ^ 23 + m / 2 ^ 12 * 2 ^ 12) = (2 ^ 11 + m / 2 ^ 12) * 2 ^ d * 2 ^ 112 := by
    have hm2 : m / 2 ^ 12 * 2 ^ 12 < 2 ^ 23 := lt_of_le_of_lt (Nat.div_mul_le_self m _) hm
    have hm3 : 2 ^ 23 + m / 2 ^ 12 * 2 ^ 12 = (2 ^ 11 + m / 2 ^ 12) * 2 ^ 12 := by ring
    rw [mag_normal hm2, hm3, pow_add, show (2 : Nat) ^ 112 = 2 ^ 12 * 2 ^ 100 by norm_num]
    ring
  have hd2 : 2 ^ d ≤ 2 ^ 11 := Nat.pow_le_pow_right (by omega) (by omega)
  have hw : 2 ^ 11 + m / 2 ^ 12 < 2 ^ 12 := by omega
  have hQ : (2 ^ 11 + m / 2 ^ 12) * 2 ^ d < 2 ^ 23 := by
    calc (2 ^ 11 + m / 2 ^ 12) * 2 ^ d < 2 ^ 12 * 2 ^ d := Nat.mul_lt_mul_of_pos_right hw (Nat.two_pow_pos d)
      _ ≤ 2 ^ 12 * 2 ^ 11 := Nat.mul_le_mul_left _ hd2
      _ = 2 ^ 23 := by norm_num
  have e3 : mul32 ((d + 100 + 1) * 2 ^ 23 + m / 2 ^ 12 * 2 ^ 12) (15 * 2 ^ 23) = (2 ^ 11 + m / 2 ^ 12) * 2 ^ d := by
    unfold mul32
    rw [e2, mag_magic, Nat.mul_assoc, ← pow_add]
    have := round32_exact (b := (2 ^ 11 + m / 2 ^ 12) * 2 ^ d) (by omega) 149
    rw [mag_small (by omega)] at this
    exact this
  have e4 : narrow ((d + 100 + 1) * 2 ^ 23 + m) = ((2 ^ 11 + m / 2 ^ 12) * 2 ^ d + 2 ^ 12) / 2 ^ 13 := by
    unfold narrow
    rw [if_neg (by clear * - hd hm; omega), e1, e3]
    generalize (2 ^ 11 + m / 2 ^ 12) * 2 ^ d = Q at *
    clear * - hQ
    omega
  have e5 : mag 23 ((d + 100 + 1) * 2 ^ 23 + m) = (2 ^ 23 + m) * 2 ^ d * 2 ^ 100 := by
    rw [mag_normal hm, pow_add]; ring
  rw [e4]
  have hle : ((2 ^ 11 + m / 2 ^ 12) * 2 ^ d + 2 ^ 12) / 2 ^ 13 ≤ 2 ^ 10 := by
    generalize (2 ^ 11 + m / 2 ^ 12) * 2 ^ d = Q at *
    clear * - hQ
    omega
  refine ⟨le_trans hle (by norm_num), fun hh => ?_, fun _ => ?_⟩
  · have hle1 : ((2 ^ 11 + m / 2 ^ 12) * 2 ^ d + 2 ^ 12) / 2 ^ 13 - 1 ≤ 2 ^ 10 + 1 := by
      generalize (2 ^ 11 + m / 2 ^ 12) * 2 ^ d = Q at *
      clear * - hle
      omega
    rw [mag10_small hle1, mag10_small (Nat.le_succ_of_le hle), pow124]
    refine le_trans (Nat.mul_le_mul_right _ (m := (2 ^ 11 + m / 2 ^ 12) * 2 ^ d) ?_) ?_
    · generalize (2 ^ 11 + m / 2 ^ 12) * 2 ^ d = Q at *
      clear * - hh
      omega
    · rw [← e2]
      have hf : (d + 100 + 1) * 2 ^ 23 + m / 2 ^ 12 * 2 ^ 12 ≤ (d + 100 + 1) * 2 ^ 23 + m := by clear * -; omega
      exact mag_le hf
  · rw [mag10_small (Nat.le_succ_of_le hle), mag10_small (Nat.succ_le_succ hle), e5]
    have hq : (2 ^ 11 + m / 2 ^ 12) * 2 ^ d < (2 * (((2 ^ 11 + m / 2 ^ 12) * 2 ^ d + 2 ^ 12) / 2 ^ 13) + 1) * 2 ^ (12 - d) * 2 ^ d := by
      rw [Nat.mul_assoc (2 * _ + 1), ← pow_add, Nat.sub_add_cancel (by omega)]
      generalize (2 ^ 11 + m / 2 ^ 12) * 2 ^ d = Q at *
      clear * -
      omega
    generalize ((2 ^ 11 + m / 2 ^ 12) * 2 ^ d + 2 ^ 12) / 2 ^ 13 = h at *
    have hq2 : 2 ^ 11 + m / 2 ^ 12 < (2 * h + 1) * 2 ^ (12 - d) := Nat.lt_of_mul_lt_mul_right hq
    have hq3 : 2 ^ 23 + m < (2 * h + 1) * 2 ^ (12 - d) * 2 ^ 12 := by
      generalize (2 * h + 1) * 2 ^ (12 - d) = Z at *
      clear * - hq2
      omega
    have hq4 := Nat.mul_lt_mul_of_pos_right (Nat.mul_lt_mul_of_pos_right hq3 (Nat.two_pow_pos d)) (Nat.two_pow_pos 100)
    refine lt_of_lt_of_eq hq4 ?_
    calc (2 * h + 1) * 2 ^ (12 - d) * 2 ^ 12 * 2 ^ d * 2 ^ 100
        = (2 * h + 1) * (2 ^ (12 - d) * 2 ^ d) * (2 ^ 12 * 2 ^ 100) := by ring
      _ = (2 * h + 1) * 2 ^ 12 * 2 ^ 112 := by rw [← pow_add, ← pow_add, Nat.sub_add_cancel (by omega)]
      _ = (h + (h + 1)) * 2 ^ 124 := by rw [pow124]; congr 2; omega

/-- Numbers that become zero. -/
theorem between_zero {f : Nat} (h : f < 101 * 2 ^ 23) : Between f (narrow f) := by
  have e0 : mag 23 (101 * 2 ^ 23) = 2 ^ 123 := by
    have := mag_normal (p := 23) (e := 100) (m := 0) (by norm_num)
    rw [Nat.add_zero] at this
    rw [this]; norm_num
  have h1 : mag 23 f < 2 ^ 123 := by rw [← e0]; exact mag_lt h
  have h2 : mag 23 (f / 2 ^ 12 * 2 ^ 12) < 2 ^ 123 := by rw [← e0]; exact mag_lt (by omega)
  have h3 : mul32 (f / 2 ^ 12 * 2 ^ 12) (15 * 2 ^ 23) ≤ 2 ^ 11 := by
    unfold mul32
    refine round32_small ?_
    rw [mag_magic]
    calc mag 23 (f / 2 ^ 12 * 2 ^ 12) * 2 ^ 37 < 2 ^ 123 * 2 ^ 37 := Nat.mul_lt_mul_of_pos_right h2 (Nat.two_pow_pos 37)
      _ = 2 ^ (11 + 149) := by norm_num
  have e4 : narrow f = 0 := by
    unfold narrow
    rw [if_neg (by omega)]
    generalize mul32 (f / 2 ^ 12 * 2 ^ 12) (15 * 2 ^ 23) = q at *
    omega
  rw [e4]
  refine ⟨by omega, fun hh => absurd hh (by omega), fun _ => ?_⟩
  rw [mag10_small (by omega), mag10_small (by omega)]
  refine lt_trans h1 ?_
  norm_num

theorem between {f : Nat} (h : f < 255 * 2 ^ 23) : Between f (narrow f) := by
  by_cases h1 : 113 * 2 ^ 23 ≤ f
  · exact between_normal h1 h
  · by_cases h2 : 101 * 2 ^ 23 ≤ f
    · exact between_sub h2 (by omega)
    · exact between_zero (by omega)

/-- There is only one such number for larger and larger numbers. -/
theorem Between.mono {f f' h h' : Nat} (a : Between f h) (b : Between f' h') (hf : mag 23 f ≤ mag 23 f') : h ≤ h' := by
  by_contra hc
  have h1 := a.lower (by omega)
  have h2 := b.upper (by have := a.le; omega)
  have h3 : mag 10 h' ≤ mag 10 (h - 1) := mag_le (by omega)
  have h4 : mag 10 (h' + 1) ≤ mag 10 h := mag_le (by omega)
  have h5 : (mag 10 h' + mag 10 (h' + 1)) * 2 ^ 124 ≤ (mag 10 (h - 1) + mag 10 h) * 2 ^ 124 :=
    Nat.mul_le_mul_right _ (by omega)
  omega

/-! ## From half to single precision -/

/-- `halfToFloat` without the sign. -/
def widen (h : Nat) : Nat :=
  if h < 2 ^ 10 then round32 (h * 2 ^ 125) 0
  else if h < 0x7C00 then h * 2 ^ 13 + 112 * 2 ^ 23
  else h * 2 ^ 13 + 224 * 2 ^ 23

theorem exists_mag {h : Nat} (hh : h < 2 ^ 10) : ∃ b, b < 255 * 2 ^ 23 ∧ mag 23 b = h * 2 ^ 125 := by
  rcases Nat.eq_zero_or_pos h with rfl | h0
  · exact ⟨0, by norm_num, by rw [mag_small (by norm_num)]; rfl⟩
  · have h0' : h ≠ 0 := by omega
    have h1 : 2 ^ Nat.log2 h ≤ h := Nat.log2_self_le h0'
    have h2 : h < 2 ^ (Nat.log2 h + 1) := Nat.lt_log2_self
    have h3 : Nat.log2 h < 10 := (Nat.log2_lt h0').2 hh
    generalize Nat.log2 h = l at *
    refine ⟨(102 + l + 1) * 2 ^ 23 + (h - 2 ^ l) * 2 ^ (23 - l), ?_, ?_⟩
    · have : (h - 2 ^ l) * 2 ^ (23 - l) < 2 ^ 23 := by
        calc (h - 2 ^ l) * 2 ^ (23 - l) < 2 ^ l * 2 ^ (23 - l) :=
              Nat.mul_lt_mul_of_pos_right (by rw [pow_succ] at h2; omega) (Nat.two_pow_pos _)
          _ = 2 ^ 23 := by rw [← pow_add]; congr 1; omega
      omega
    · have hm : (h - 2 ^ l) * 2 ^ (23 - l) < 2 ^ 23 := by
        calc (h - 2 ^ l) * 2 ^ (23 - l) < 2 ^ l * 2 ^ (23 - l) :=
              Nat.mul_lt_mul_of_pos_right (by rw [pow_succ] at h2; omega) (Nat.two_pow_pos _)
          _ = 2 ^ 23 := by rw [← pow_add]; congr 1; omega
      rw [mag_normal hm]
      have e : 2 ^ 23 + (h - 2 ^ l) * 2 ^ (23 - l) = h * 2 ^ (23 - l) := by
        have : 2 ^ 23 = 2 ^ l * 2 ^ (23 - l) := by rw [← pow_add]; congr 1; omega
        rw [this, ← Nat.add_mul]
        congr 1; omega
      rw [e, Nat.mul_assoc, ← pow_add]
      congr 2; omega

theorem widen_finite {h : Nat} (hh : h < 0x7C00) : widen h < 255 * 2 ^ 23 ∧ mag 23 (widen h) = mag 10 h * 2 ^ 125 := by
  unfold widen
  by_cases h1 : h < 2 ^ 10
  · rw [if_pos h1]
    obtain ⟨b, hb, hm⟩ := exists_mag h1
    have := round32_exact hb 0
    rw [pow_zero, Nat.mul_one, hm] at this
    rw [this, hm, mag10_small (by omega)]
    exact ⟨hb, rfl⟩
  · rw [if_neg h1, if_pos hh]
    refine ⟨by omega, ?_⟩
    rw [mag_shift 23 (h * 2 ^ 13) 112 (by omega), mag_refine 10 13 h, Nat.mul_assoc, ← pow_add]

theorem halfToFloat_eq {s h : Nat} (hs : s < 2) (hh : h < 2 ^ 15) :
    halfToFloat (s * 2 ^ 15 + h) = s * 2 ^ 31 + widen h := by
  have e1 : (s * 2 ^ 15 + h) &&& 0x8000 = s * 2 ^ 15 := and_sign s h 15 hh hs
  have e2 : (s * 2 ^ 15 + h) &&& 0x7FFF = h := by rw [and_low]; omega
  have e3 : (s * 2 ^ 15) <<< 16 = s * 2 ^ 31 := by rw [Nat.shiftLeft_eq]; omega
  have e4 : h <<< 13 = h / 2 ^ 10 * 2 ^ 23 + h % 2 ^ 10 * 2 ^ 13 := by rw [Nat.shiftLeft_eq]; omega
  have e5 : (h <<< 13) &&& (0x7C00 <<< 13) = h / 2 ^ 10 * 2 ^ 23 := by
    rw [e4]; exact and_exp (by omega) (by omega)
  have e6 : (0x7C00 <<< 13 : Nat) = 31 * 2 ^ 23 := by decide
  have e7 : ((127 - 15) <<< 23 : Nat) = 112 * 2 ^ 23 := by decide
  have e8 : ((128 - 16) <<< 23 : Nat) = 112 * 2 ^ 23 := by decide
  have e9 : (113 <<< 23 : Nat) = 113 * 2 ^ 23 := by decide
  have e10 : (1 <<< 23 : Nat) = 2 ^ 23 := by decide
  have e11 : h <<< 13 = h * 2 ^ 13 := Nat.shiftLeft_eq _ _
  have hmain : ∀ g, g = widen h → g < 2 ^ 31 → g ||| s * 2 ^ 31 = s * 2 ^ 31 + widen h := by
    intro g hg hl
    rw [or_sign s g 31 hl, hg]
  unfold halfToFloat
  simp only [e1, e2, e3, e5]
  rw [e6, e7, e9, e10, e11]
  by_cases h1 : h < 2 ^ 10
  · have hw := (widen_finite (h := h) (by omega)).1
    have hz : h / 2 ^ 10 * 2 ^ 23 = 0 := by omega
    rw [hz, if_neg (by norm_num), if_pos rfl]
    have e12 : ((h * 2 ^ 13 + 112 * 2 ^ 23) % 2 ^ 32 + 2 ^ 23) % 2 ^ 32 = (112 + 1) * 2 ^ 23 + h * 2 ^ 13 := by omega
    have e13 : mag 23 ((112 + 1) * 2 ^ 23 + h * 2 ^ 13) - mag 23 (113 * 2 ^ 23) = h * 2 ^ 125 := by
      have := mag_normal (p := 23) (e := 112) (m := 0) (by norm_num)
      rw [Nat.add_zero] at this
      rw [mag_normal (by omega), show 113 * 2 ^ 23 = (112 + 1) * 2 ^ 23 by norm_num, this, Nat.add_zero, Nat.add_mul,
        Nat.add_sub_cancel_left, Nat.mul_assoc, ← pow_add]
    have e14 : sub32 (((h * 2 ^ 13 + 112 * 2 ^ 23) % 2 ^ 32 + 2 ^ 23) % 2 ^ 32) (113 * 2 ^ 23) = widen h := by
      unfold sub32
      rw [e12, e13]
      unfold widen
      rw [if_pos h1]
    exact hmain _ e14 (by rw [e14]; omega)
  · by_cases h2 : h < 0x7C00
    · rw [if_neg (by omega), if_neg (by omega)]
      have : widen h = h * 2 ^ 13 + 112 * 2 ^ 23 := by unfold widen; rw [if_neg h1, if_pos h2]
      exact hmain _ (by rw [this]; omega) (by omega)
    · rw [if_pos (by omega)]
      have : widen h = h * 2 ^ 13 + 224 * 2 ^ 23 := by unfold widen; rw [if_neg h1, if_neg h2]
      exact hmain _ (by rw [this]; omega) (by omega)

/-- Back and forth. -/
theorem narrow_widen {h : Nat} (hh : h < 0x7C00) : narrow (widen h) = h := by
  obtain ⟨h1, h2⟩ := widen_finite hh
  have hb := between h1
  rcases Nat.lt_trichotomy (narrow (widen h)) h with hlt | he | hgt
  · exfalso
    have h3 := hb.upper (by omega)
    rw [h2] at h3
    have h4 : mag 10 (narrow (widen h)) ≤ mag 10 h := mag_le (by omega)
    have h5 : mag 10 (narrow (widen h) + 1) ≤ mag 10 h := mag_le (by omega)
    have h6 : (mag 10 (narrow (widen h)) + mag 10 (narrow (widen h) + 1)) * 2 ^ 124 ≤ (mag 10 h + mag 10 h) * 2 ^ 124 :=
      Nat.mul_le_mul_right _ (by omega)
    have h7 : (mag 10 h + mag 10 h) * 2 ^ 124 = mag 10 h * 2 ^ 125 := by ring
    omega
  · exact he
  · exfalso
    have h3 := hb.lower (by omega)
    rw [h2] at h3
    have h4 : mag 10 h ≤ mag 10 (narrow (widen h) - 1) := mag_le (by omega)
    have h5 : mag 10 h < mag 10 (narrow (widen h)) := mag_lt (by omega)
    have h6 : (mag 10 h + (mag 10 h + 1)) * 2 ^ 124 ≤ (mag 10 (narrow (widen h) - 1) + mag 10 (narrow (widen h))) * 2 ^ 124 :=
      Nat.mul_le_mul_right _ (by omega)
    have h7 : (mag 10 h + (mag 10 h + 1)) * 2 ^ 124 = mag 10 h * 2 ^ 125 + 2 ^ 124 := by ring
    have := Nat.two_pow_pos 124
    omega

end VS.Half
