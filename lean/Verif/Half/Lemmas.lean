import Verif.Half.Model
import Mathlib.Tactic.Ring
import Mathlib.Tactic.Linarith

/-! # Facts about magnitudes and rounding -/

namespace VS.Half

/-! ## Magnitudes -/

theorem mag_small {p b : Nat} (h : b < 2 ^ (p + 1)) : mag p b = b := by
  unfold mag
  have hp : 0 < 2 ^ p := Nat.two_pow_pos p
  rw [pow_succ] at h
  split
  · rfl
  · rename_i h0
    have h1 : b / 2 ^ p = 1 := by
      have : b / 2 ^ p < 2 := Nat.div_lt_of_lt_mul (by omega)
      have : 0 < b / 2 ^ p := Nat.pos_of_ne_zero h0
      clear h0
      generalize b / 2 ^ p = d at *
      omega
    have := Nat.div_add_mod b (2 ^ p)
    rw [h1] at this ⊢
    simp only [Nat.sub_self, pow_zero, mul_one] at this ⊢
    exact this

/-- The value for an exponent and a fraction. -/
theorem mag_normal {p e m : Nat} (hm : m < 2 ^ p) : mag p ((e + 1) * 2 ^ p + m) = (2 ^ p + m) * 2 ^ e := by
  have hp : 0 < 2 ^ p := Nat.two_pow_pos p
  have h1 : ((e + 1) * 2 ^ p + m) / 2 ^ p = e + 1 := by
    rw [Nat.add_comm, Nat.add_mul_div_right _ _ hp, Nat.div_eq_of_lt hm]; omega
  have h2 : ((e + 1) * 2 ^ p + m) % 2 ^ p = m := by
    rw [Nat.add_comm, Nat.add_mul_mod_self_right, Nat.mod_eq_of_lt hm]
  unfold mag
  rw [h1, h2, if_neg (by omega)]
  simp

/-- Every number of bits is subnormal or has an exponent. -/
theorem bits_cases (p b : Nat) : b < 2 ^ p ∨ ∃ e m, m < 2 ^ p ∧ b = (e + 1) * 2 ^ p + m := by
  have hp : 0 < 2 ^ p := Nat.two_pow_pos p
  by_cases h : b < 2 ^ p
  · exact Or.inl h
  · refine Or.inr ⟨b / 2 ^ p - 1, b % 2 ^ p, Nat.mod_lt _ hp, ?_⟩
    have h1 : 1 ≤ b / 2 ^ p := (Nat.le_div_iff_mul_le hp).2 (by omega)
    have := Nat.div_add_mod b (2 ^ p)
    rw [Nat.sub_add_cancel h1, Nat.mul_comm]
    exact this.symm

theorem mag_step (p b : Nat) : mag p b < mag p (b + 1) := by
  have hp : 0 < 2 ^ p := Nat.two_pow_pos p
  rcases bits_cases p b with h | ⟨e, m, hm, rfl⟩
  · rw [mag_small (by rw [pow_succ]; omega), mag_small (by rw [pow_succ]; omega)]
    omega
  · rw [mag_normal hm]
    by_cases h : m + 1 < 2 ^ p
    · rw [Nat.add_assoc, mag_normal h]
      exact Nat.mul_lt_mul_of_pos_right (by omega) (Nat.two_pow_pos e)
    · have : (e + 1) * 2 ^ p + m + 1 = (e + 1 + 1) * 2 ^ p + 0 := by
        rw [Nat.succ_mul (e + 1)]; omega
      rw [this, mag_normal hp, pow_succ]
      have := Nat.mul_lt_mul_of_pos_right (show 2 ^ p + m < 2 ^ p * 2 by omega) (Nat.two_pow_pos e)
      calc (2 ^ p + m) * 2 ^ e < 2 ^ p * 2 * 2 ^ e := this
        _ = (2 ^ p + 0) * (2 ^ e * 2) := by ring

theorem mag_mono (p : Nat) : StrictMono (mag p) := strictMono_nat_of_lt_succ (mag_step p)

theorem mag_le {p a b : Nat} (h : a ≤ b) : mag p a ≤ mag p b := (mag_mono p).monotone h

theorem mag_lt {p a b : Nat} (h : a < b) : mag p a < mag p b := mag_mono p h

/-- More bits for the fraction. -/
theorem mag_refine (p k b : Nat) : mag (p + k) (b * 2 ^ k) = mag p b * 2 ^ k := by
  have hk : 0 < 2 ^ k := Nat.two_pow_pos k
  rcases bits_cases p b with h | ⟨e, m, hm, rfl⟩
  · have h2 : b * 2 ^ k < 2 ^ p * 2 ^ k := Nat.mul_lt_mul_of_pos_right h hk
    rw [mag_small (by rw [pow_succ, pow_add]; omega), mag_small (by rw [pow_succ]; omega)]
  · have h2 : m * 2 ^ k < 2 ^ (p + k) := by rw [pow_add]; exact Nat.mul_lt_mul_of_pos_right hm hk
    have h3 : ((e + 1) * 2 ^ p + m) * 2 ^ k = (e + 1) * 2 ^ (p + k) + m * 2 ^ k := by rw [pow_add]; ring
    rw [h3, mag_normal h2, mag_normal hm, pow_add]
    ring

/-- The middle between two numbers. -/
theorem mag_mid (p b : Nat) : mag (p + 1) (2 * b + 1) = mag p b + mag p (b + 1) := by
  have hp : 0 < 2 ^ p := Nat.two_pow_pos p
  rcases bits_cases p b with h | ⟨e, m, hm, rfl⟩
  · rw [mag_small (by rw [pow_succ, pow_succ]; omega), mag_small (by rw [pow_succ]; omega),
      mag_small (by rw [pow_succ]; omega)]
    omega
  · have h2 : 2 * m + 1 < 2 ^ (p + 1) := by rw [pow_succ]; omega
    have h3 : 2 * ((e + 1) * 2 ^ p + m) + 1 = (e + 1) * 2 ^ (p + 1) + (2 * m + 1) := by rw [pow_succ]; ring
    rw [h3, mag_normal h2, mag_normal hm]
    by_cases h : m + 1 < 2 ^ p
    · rw [Nat.add_assoc, mag_normal h, pow_succ]; ring
    · have h4 : (e + 1) * 2 ^ p + m + 1 = (e + 1 + 1) * 2 ^ p + 0 := by
        rw [Nat.succ_mul (e + 1)]; omega
      have h5 : 2 ^ p = m + 1 := by omega
      rw [h4, mag_normal hp, pow_succ, pow_succ, h5]
      ring

/-- The middle between two numbers, with more bits. -/
theorem mag_mid13 (b : Nat) : mag 23 (b * 2 ^ 13 + 2 ^ 12) = (mag 10 b + mag 10 (b + 1)) * 2 ^ 12 := by
  have h := mag_refine 11 12 (2 * b + 1)
  have h2 : (2 * b + 1) * 2 ^ 12 = b * 2 ^ 13 + 2 ^ 12 := by ring
  rw [mag_mid 10 b, h2] at h
  exact h

/-- Another exponent. -/
theorem mag_shift (p b k : Nat) (h : 2 ^ p ≤ b) : mag p (b + k * 2 ^ p) = mag p b * 2 ^ k := by
  rcases bits_cases p b with h1 | ⟨e, m, hm, rfl⟩
  · omega
  · have : (e + 1) * 2 ^ p + m + k * 2 ^ p = (e + k + 1) * 2 ^ p + m := by ring
    rw [this, mag_normal hm, mag_normal hm, pow_add]
    ring

/-! ## Rounding -/

theorem tiesEven_exact (q k : Nat) : tiesEven (q * 2 ^ k) k = q := by
  unfold tiesEven
  have hk := Nat.two_pow_pos k
  rw [Nat.mul_mod_left, Nat.mul_div_cancel _ hk]
  simp

theorem tiesEven_le (n k : Nat) : tiesEven n k ≤ n / 2 ^ k + 1 := by
  unfold tiesEven
  simp only
  split <;> (try split) <;> (try split) <;> omega

/-- A number that can be represented is not rounded. -/
theorem round32_exact {b : Nat} (hb : b < 255 * 2 ^ 23) (k : Nat) : round32 (mag 23 b * 2 ^ k) k = b := by
  unfold round32
  have hk := Nat.two_pow_pos k
  by_cases h : b < 2 ^ 24
  · rw [mag_small (by simpa using h)]
    have h1 : b * 2 ^ k < 2 ^ (24 + k) := by rw [pow_add]; exact Nat.mul_lt_mul_of_pos_right h hk
    simp only [if_pos h1, Nat.add_zero, tiesEven_exact]
    omega
  · obtain h0 | ⟨e, m, hm, rfl⟩ := bits_cases 23 b
    · omega
    · have he : 1 ≤ e := by
        rcases Nat.eq_zero_or_pos e with rfl | h2
        · exfalso; apply h; norm_num at hm ⊢; omega
        · exact h2
      rw [mag_normal hm]
      have e1 : (2 ^ 23 + m) * 2 ^ e * 2 ^ k = (2 ^ 23 + m) * 2 ^ (e + k) := by rw [pow_add]; ring
      have hlog : Nat.log2 ((2 ^ 23 + m) * 2 ^ (e + k)) = 23 + (e + k) := by
        rw [Nat.log2_eq_iff (by have := Nat.two_pow_pos (e + k); positivity)]
        constructor
        · rw [pow_add]; exact Nat.mul_le_mul_right _ (by omega)
        · rw [show 23 + (e + k) + 1 = 24 + (e + k) by omega, pow_add 2 24]
          refine Nat.mul_lt_mul_of_pos_right ?_ (Nat.two_pow_pos _)
          norm_num at hm ⊢; omega
      have hge : ¬ (2 ^ 23 + m) * 2 ^ (e + k) < 2 ^ (24 + k) := by
        rw [Nat.not_lt]
        calc 2 ^ (24 + k) = 2 ^ 23 * 2 ^ (1 + k) := by rw [← pow_add]; congr 1; omega
          _ ≤ (2 ^ 23 + m) * 2 ^ (e + k) :=
            Nat.mul_le_mul (by omega) (Nat.pow_le_pow_right (by omega) (by omega))
      rw [e1, hlog]
      simp only [if_neg hge]
      rw [show 23 + (e + k) - k - 23 = e by omega, Nat.add_comm k e, tiesEven_exact]
      norm_num at hb ⊢
      omega

/-- Numbers below one half of 2^13 smallest units stay there. -/
theorem round32_small {n k : Nat} (h : n < 2 ^ (11 + k)) : round32 n k ≤ 2 ^ 11 := by
  unfold round32
  have h1 : n < 2 ^ (24 + k) := lt_of_lt_of_le h (Nat.pow_le_pow_right (by omega) (by omega))
  simp only [if_pos h1]
  have h2 := tiesEven_le n k
  have h3 : n / 2 ^ k < 2 ^ 11 := Nat.div_lt_of_lt_mul (by rw [← pow_add, Nat.add_comm k]; exact h)
  simp only [Nat.add_zero]
  omega

/-! ## Bits -/

theorem and_sign (s f w : Nat) (hf : f < 2 ^ w) (hs : s < 2) : (s * 2 ^ w + f) &&& 2 ^ w = s * 2 ^ w := by
  apply Nat.eq_of_testBit_eq
  intro i
  rw [Nat.testBit_and, Nat.testBit_two_pow]
  have e : s * 2 ^ w + f = 2 ^ w * s + f := by ring
  rw [e, Nat.testBit_two_pow_mul_add s hf, Nat.mul_comm s, Nat.testBit_two_pow_mul]
  by_cases hi : w = i
  · subst hi; simp
  · by_cases h2 : w ≤ i
    · have h3 : (s.testBit (i - w)) = false := by
        apply Nat.testBit_lt_two_pow
        calc s < 2 ^ 1 := by omega
          _ ≤ 2 ^ (i - w) := Nat.pow_le_pow_right (by omega) (by omega)
      simp [hi, h3]
    · simp [hi, h2]

theorem xor_sign (s f w : Nat) (hf : f < 2 ^ w) : (s * 2 ^ w + f) ^^^ (s * 2 ^ w) = f := by
  rw [Nat.mul_comm s]
  apply Nat.eq_of_testBit_eq
  intro i
  rw [Nat.testBit_xor, Nat.testBit_two_pow_mul_add s hf, Nat.testBit_two_pow_mul]
  by_cases h : i < w
  · simp [h, Nat.not_le.2 h]
  · have : f.testBit i = false := Nat.testBit_lt_two_pow (lt_of_lt_of_le hf (Nat.pow_le_pow_right (by omega) (by omega)))
    simp [h, this, Nat.le_of_not_lt h]

theorem or_sign (s f w : Nat) (hf : f < 2 ^ w) : f ||| s * 2 ^ w = s * 2 ^ w + f := by
  rw [Nat.or_comm, Nat.mul_comm]
  exact (Nat.two_pow_add_eq_or_of_lt hf s).symm

/-- `f & ~0x0FFF`. -/
theorem and_round {f : Nat} (hf : f < 2 ^ 32) : f &&& 0xFFFFF000 = f / 2 ^ 12 * 2 ^ 12 := by
  have e : (0xFFFFF000 : Nat) = (2 ^ 20 - 1) * 2 ^ 12 := by norm_num
  apply Nat.eq_of_testBit_eq
  intro i
  rw [e, Nat.testBit_and, Nat.mul_comm, Nat.testBit_two_pow_mul, Nat.mul_comm (f / 2 ^ 12), Nat.testBit_two_pow_mul,
    Nat.testBit_div_two_pow, Nat.testBit_two_pow_sub_one]
  by_cases h : 12 ≤ i
  · rw [show i - 12 + 12 = i by omega]
    by_cases h2 : i - 12 < 20
    · simp [h, h2]
    · have : f.testBit i = false := Nat.testBit_lt_two_pow (lt_of_lt_of_le hf (Nat.pow_le_pow_right (by omega) (by omega)))
      simp [this]
  · simp [h]

/-- `f & (0x7C00 << 13)`. -/
theorem and_exp {e m : Nat} (hm : m < 2 ^ 23) (he : e < 32) : (e * 2 ^ 23 + m) &&& (0x7C00 <<< 13) = e * 2 ^ 23 := by
  have e0 : (0x7C00 <<< 13 : Nat) = (2 ^ 5 - 1) * 2 ^ 23 := by decide
  apply Nat.eq_of_testBit_eq
  intro i
  rw [e0, Nat.testBit_and, Nat.mul_comm, Nat.testBit_two_pow_mul_add e hm, Nat.mul_comm (2 ^ 5 - 1),
    Nat.testBit_two_pow_mul, Nat.testBit_two_pow_mul, Nat.testBit_two_pow_sub_one]
  by_cases h : i < 23
  · have : ¬ 23 ≤ i := by omega
    simp [h, this]
  · have h' : 23 ≤ i := by omega
    by_cases h2 : i - 23 < 5
    · simp [h, h', h2]
    · have : e.testBit (i - 23) = false :=
        Nat.testBit_lt_two_pow (lt_of_lt_of_le (show e < 2 ^ 5 by omega) (Nat.pow_le_pow_right (by omega) (by omega)))
      simp [h, this]

theorem and_low (h : Nat) : h &&& 0x7FFF = h % 2 ^ 15 := Nat.and_two_pow_sub_one_eq_mod h 15

end VS.Half
