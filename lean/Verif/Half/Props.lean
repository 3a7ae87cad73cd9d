import Verif.Half.LemmasConv
import Verif.Half.Spec
import Mathlib.Algebra.Order.Field.Basic
import Mathlib.Algebra.Order.AbsoluteValue.Basic
import Mathlib.Data.Rat.Cast.Order
import Mathlib.Tactic.FieldSimp
import Mathlib.Tactic.NormNum

/-!
# C84: conversion between half and single precision

Samples in half precision are computed with in single precision; `halfToFloat` and `floatToHalf` are used by all filters.
-/

namespace VS.Half
open Spec

/-! ## Values -/

/-- The sign as a factor. -/
def sg (s : Nat) : Int := if s = 1 then -1 else 1

theorem split32 {x : Nat} (h : single.Bits x) : ∃ s f, s < 2 ∧ f < 2 ^ 31 ∧ x = s * 2 ^ 31 + f := by
  have : x < 2 ^ 32 := h
  exact ⟨x / 2 ^ 31, x % 2 ^ 31, by omega, by omega, by omega⟩

theorem split16 {x : Nat} (h : half.Bits x) : ∃ s f, s < 2 ∧ f < 2 ^ 15 ∧ x = s * 2 ^ 15 + f := by
  have : x < 2 ^ 16 := h
  exact ⟨x / 2 ^ 15, x % 2 ^ 15, by omega, by omega, by omega⟩

theorem sign32 {s f : Nat} (hf : f < 2 ^ 31) : single.sign (s * 2 ^ 31 + f) = s := by
  show (s * 2 ^ 31 + f) / 2 ^ 31 = s
  omega

theorem sign16 {s f : Nat} (hf : f < 2 ^ 15) : half.sign (s * 2 ^ 15 + f) = s := by
  show (s * 2 ^ 15 + f) / 2 ^ 15 = s
  omega

theorem exp32 {s f : Nat} (hf : f < 2 ^ 31) : single.exp (s * 2 ^ 31 + f) = f / 2 ^ 23 := by
  show (s * 2 ^ 31 + f) / 2 ^ 23 % 2 ^ 8 = f / 2 ^ 23
  omega

theorem exp16 {s f : Nat} (hf : f < 2 ^ 15) : half.exp (s * 2 ^ 15 + f) = f / 2 ^ 10 := by
  show (s * 2 ^ 15 + f) / 2 ^ 10 % 2 ^ 5 = f / 2 ^ 10
  omega

theorem frac32 {s f : Nat} : single.frac (s * 2 ^ 31 + f) = f % 2 ^ 23 := by
  show (s * 2 ^ 31 + f) % 2 ^ 23 = f % 2 ^ 23
  omega

theorem frac16 {s f : Nat} : half.frac (s * 2 ^ 15 + f) = f % 2 ^ 10 := by
  show (s * 2 ^ 15 + f) % 2 ^ 10 = f % 2 ^ 10
  omega

theorem value32 {s f : Nat} (hf : f < 2 ^ 31) : single.value (s * 2 ^ 31 + f) = ((sg s * mag 23 f : Int) : Rat) / 2 ^ 149 := by
  unfold Fmt.value
  rw [sign32 hf, exp32 hf, frac32]
  have hb : single.bias = 127 := by unfold Fmt.bias single; norm_num
  have ht : single.t = 23 := rfl
  rw [hb, ht]
  unfold mag sg
  by_cases h : f / 2 ^ 23 = 0
  · rw [if_pos h, if_pos h]
    have : f % 2 ^ 23 = f := by omega
    rw [this, show (1 - 127 : Int) = -126 by norm_num, zpow_neg, show (126 : Int) = ((126 : Nat) : Int) by rfl, zpow_natCast]
    split <;> push_cast <;> field_simp
  · rw [if_neg h, if_neg h]
    obtain ⟨e, he⟩ : ∃ e, f / 2 ^ 23 = e + 1 := ⟨f / 2 ^ 23 - 1, (Nat.sub_add_cancel (Nat.pos_of_ne_zero h)).symm⟩
    rw [he, Nat.add_sub_cancel, show ((e + 1 : Nat) : Int) - 127 = (e : Int) - ((126 : Nat) : Int) by push_cast; ring,
      zpow_sub₀ (by norm_num), zpow_natCast, zpow_natCast]
    generalize f % 2 ^ 23 = m
    split <;> push_cast <;> field_simp <;> norm_num

theorem value16 {s f : Nat} (hf : f < 2 ^ 15) : half.value (s * 2 ^ 15 + f) = ((sg s * mag 10 f : Int) : Rat) / 2 ^ 24 := by
  unfold Fmt.value
  rw [sign16 hf, exp16 hf, frac16]
  have hb : half.bias = 15 := by unfold Fmt.bias half; norm_num
  have ht : half.t = 10 := rfl
  rw [hb, ht]
  unfold mag sg
  by_cases h : f / 2 ^ 10 = 0
  · rw [if_pos h, if_pos h]
    have : f % 2 ^ 10 = f := by omega
    rw [this, show (1 - 15 : Int) = -14 by norm_num, zpow_neg, show (14 : Int) = ((14 : Nat) : Int) by rfl, zpow_natCast]
    split <;> push_cast <;> field_simp
  · rw [if_neg h, if_neg h]
    obtain ⟨e, he⟩ : ∃ e, f / 2 ^ 10 = e + 1 := ⟨f / 2 ^ 10 - 1, (Nat.sub_add_cancel (Nat.pos_of_ne_zero h)).symm⟩
    rw [he, Nat.add_sub_cancel, show ((e + 1 : Nat) : Int) - 15 = (e : Int) - ((14 : Nat) : Int) by push_cast; ring,
      zpow_sub₀ (by norm_num), zpow_natCast, zpow_natCast]
    generalize f % 2 ^ 10 = m
    split <;> push_cast <;> field_simp <;> norm_num

theorem value16' {s f : Nat} (hf : f < 2 ^ 15) :
    half.value (s * 2 ^ 15 + f) = ((sg s * (mag 10 f * 2 ^ 125 : Nat) : Int) : Rat) / 2 ^ 149 := by
  rw [value16 hf]
  push_cast
  rw [div_eq_div_iff (by norm_num) (by norm_num)]
  ring

theorem finite32 {s f : Nat} (hf : f < 2 ^ 31) : single.Finite (s * 2 ^ 31 + f) ↔ f < 255 * 2 ^ 23 := by
  unfold Fmt.Finite
  rw [exp32 hf]
  show f / 2 ^ 23 ≠ 2 ^ 8 - 1 ↔ _
  omega

theorem finite16 {s f : Nat} (hf : f < 2 ^ 15) : half.Finite (s * 2 ^ 15 + f) ↔ f < 0x7C00 := by
  unfold Fmt.Finite
  rw [exp16 hf]
  show f / 2 ^ 10 ≠ 2 ^ 5 - 1 ↔ _
  omega

theorem inf32 {s f : Nat} (hf : f < 2 ^ 31) : single.Inf (s * 2 ^ 31 + f) ↔ f = 255 * 2 ^ 23 := by
  unfold Fmt.Inf
  rw [exp32 hf, frac32]
  show f / 2 ^ 23 = 2 ^ 8 - 1 ∧ _ ↔ _
  omega

theorem inf16 {s f : Nat} (hf : f < 2 ^ 15) : half.Inf (s * 2 ^ 15 + f) ↔ f = 0x7C00 := by
  unfold Fmt.Inf
  rw [exp16 hf, frac16]
  show f / 2 ^ 10 = 2 ^ 5 - 1 ∧ _ ↔ _
  omega

theorem nan32 {s f : Nat} (hf : f < 2 ^ 31) : single.NaN (s * 2 ^ 31 + f) ↔ 255 * 2 ^ 23 < f := by
  unfold Fmt.NaN
  rw [exp32 hf, frac32]
  show f / 2 ^ 23 = 2 ^ 8 - 1 ∧ _ ↔ _
  omega

theorem nan16 {s f : Nat} (hf : f < 2 ^ 15) : half.NaN (s * 2 ^ 15 + f) ↔ 0x7C00 < f := by
  unfold Fmt.NaN
  rw [exp16 hf, frac16]
  show f / 2 ^ 10 = 2 ^ 5 - 1 ∧ _ ↔ _
  omega

theorem widen_lt {h : Nat} (hh : h < 2 ^ 15) : widen h < 2 ^ 31 := by
  by_cases h1 : h < 0x7C00
  · have := (widen_finite h1).1
    omega
  · unfold widen
    rw [if_neg (by omega), if_neg h1]
    omega

/-! ## C84 -/

/-- **C84**: each half precision number becomes the single precision number with the same sign and value; infinities and
NaNs stay what they are. -/
theorem C84_widen {h : Nat} (hh : half.Bits h) :
    single.Bits (halfToFloat h) ∧ single.sign (halfToFloat h) = half.sign h ∧
      (half.Finite h → single.Finite (halfToFloat h) ∧ single.value (halfToFloat h) = half.value h) ∧
      (half.Inf h → single.Inf (halfToFloat h)) ∧ (half.NaN h → single.NaN (halfToFloat h)) := by
  obtain ⟨s, f, hs, hf, rfl⟩ := split16 hh
  have hw := widen_lt hf
  rw [halfToFloat_eq hs hf, sign32 hw, sign16 hf, finite16 hf, finite32 hw, inf16 hf, inf32 hw, nan16 hf, nan32 hw]
  refine ⟨?_, rfl, fun h => ?_, fun h => ?_, fun h => ?_⟩
  · show s * 2 ^ 31 + widen f < 2 ^ 32
    omega
  · obtain ⟨h1, h2⟩ := widen_finite h
    exact ⟨h1, by rw [value32 hw, value16' hf, h2]⟩
  · subst h
    decide
  · unfold widen
    rw [if_neg (by omega), if_neg (by omega)]
    omega

example : halfToFloat 0x3C00 = 0x3F800000 ∧ single.value 0x3F800000 = 1 := by
  refine ⟨by decide, ?_⟩
  have := value32 (s := 0) (f := 0x3F800000) (by norm_num)
  norm_num at this
  rw [this]
  have e : mag 23 0x3F800000 = 2 ^ 149 := by decide
  rw [e]
  unfold sg
  norm_num

/-- Distances as integers. -/
theorem dist_eq {s f t g : Nat} (hf : f < 2 ^ 31) (hg : g < 2 ^ 15) :
    |single.value (s * 2 ^ 31 + f) - half.value (t * 2 ^ 15 + g)| =
      ((|sg s * mag 23 f - sg t * (mag 10 g * 2 ^ 125 : Nat)| : Int) : Rat) / 2 ^ 149 := by
  rw [value32 hf, value16' hg, ← sub_div, abs_div, abs_of_pos (show (0 : Rat) < 2 ^ 149 by norm_num), ← Int.cast_sub, ← Int.cast_abs]

theorem abs_value16 {t g : Nat} (hg : g < 2 ^ 15) : |half.value (t * 2 ^ 15 + g)| = ((mag 10 g : Int) : Rat) / 2 ^ 24 := by
  rw [value16 hg, abs_div, abs_of_pos (show (0 : Rat) < 2 ^ 24 by norm_num), ← Int.cast_abs]
  congr 2
  unfold sg
  split <;> simp

/-- The nearest number, in integers: `X` is what is rounded, `P`, `H` and `N` are the result and its neighbours, `G` is another number. -/
theorem nearest_int {X P H N G : Int} (a b : Int) (ha : a = 1 ∨ a = -1) (hb : b = 1 ∨ b = -1) (h0 : 0 ≤ X) (hG : 0 ≤ G)
    (hH : 0 ≤ H) (_hP : 0 ≤ P) (hlow : H = 0 ∨ P + H ≤ 2 * X) (hup : 2 * X < H + N) (hPH : H = 0 ∨ P < H) (hHN : H < N) (hc : G = H ∨ (H ≠ 0 ∧ G ≤ P) ∨ N ≤ G) :
    |a * X - a * H| ≤ |a * X - b * G| ∧ (|a * X - a * H| = |a * X - b * G| → G ≤ H) := by
  have e : |a * X - a * H| = |X - H| := by
    rcases ha with rfl | rfl
    · simp
    · rw [show -1 * X - -1 * H = -(X - H) by ring, abs_neg]
  rw [e]
  rcases eq_or_ne a b with rfl | hne
  · have e2 : |a * X - a * G| = |X - G| := by
      rcases ha with rfl | rfl
      · simp
      · rw [show -1 * X - -1 * G = -(X - G) by ring, abs_neg]
    rw [e2]
    rcases abs_cases (X - H) with ⟨h1, h2⟩ | ⟨h1, h2⟩ <;> rcases abs_cases (X - G) with ⟨h3, h4⟩ | ⟨h3, h4⟩ <;>
      rw [h1, h3] <;> omega
  · have e2 : |a * X - b * G| = X + G := by
      rcases ha with rfl | rfl <;> rcases hb with rfl | rfl
      · exact absurd rfl hne
      · rw [show (1 : Int) * X - -1 * G = X + G by ring]; exact abs_of_nonneg (by omega)
      · rw [show (-1 : Int) * X - 1 * G = -(X + G) by ring, abs_neg]; exact abs_of_nonneg (by omega)
      · exact absurd rfl hne
    rw [e2]
    rcases abs_cases (X - H) with ⟨h1, h2⟩ | ⟨h1, h2⟩ <;> rw [h1] <;> omega

theorem sg_cases (s : Nat) : sg s = 1 ∨ sg s = -1 := by
  unfold sg
  split
  · exact Or.inr rfl
  · exact Or.inl rfl

/-- **C84**: a finite number below 65520 becomes the nearest half precision number, of the same sign; if two are equally
near it is the one that is farther from zero. -/
theorem C84_narrow {x : Nat} (hx : single.Bits x) (hfin : single.Finite x) (hlt : |single.value x| < 65520) :
    half.Bits (floatToHalf x) ∧ half.sign (floatToHalf x) = single.sign x ∧ half.Finite (floatToHalf x) ∧
      Nearest (single.value x) (floatToHalf x) := by
  obtain ⟨s, f, hs, hf, rfl⟩ := split32 hx
  rw [finite32 hf] at hfin
  have hb := between hfin
  have hn := narrow_lt f
  have hX : mag 23 f < 65520 * 2 ^ 149 := by
    rw [value32 hf, abs_div, abs_of_pos (show (0 : Rat) < 2 ^ 149 by norm_num), ← Int.cast_abs,
      div_lt_iff₀ (by norm_num)] at hlt
    have e : |sg s * (mag 23 f : Int)| = mag 23 f := by
      rcases sg_cases s with h | h <;> rw [h] <;> simp
    rw [e] at hlt
    exact_mod_cast hlt
  have hne : narrow f < 0x7C00 := by
    by_contra hc
    have e : narrow f = 0x7C00 := by have := hb.le; omega
    have h1 := hb.lower (by omega)
    rw [e] at h1
    have e2 : (mag 10 (0x7C00 - 1) + mag 10 0x7C00) * 2 ^ 124 = 65520 * 2 ^ 149 := by decide
    omega
  rw [floatToHalf_eq hs hf, sign16 hn, sign32 hf, finite16 hn]
  refine ⟨by show s * 2 ^ 15 + narrow f < 2 ^ 16; omega, rfl, hne, ?_⟩
  intro g hg hgf
  obtain ⟨t, k, ht, hk, rfl⟩ := split16 hg
  rw [finite16 hk] at hgf
  rw [dist_eq hf hn, dist_eq hf hk, abs_value16 hk, abs_value16 hn, div_le_div_iff_of_pos_right (by norm_num),
    div_le_div_iff_of_pos_right (by norm_num), div_left_inj' (by norm_num), Int.cast_le, Int.cast_le, Int.cast_inj]
  have hup := hb.upper hne
  have hlo := hb.lower
  generalize narrow f = h at *
  have key := nearest_int (X := mag 23 f) (P := (mag 10 (h - 1) * 2 ^ 125 : Nat)) (H := (mag 10 h * 2 ^ 125 : Nat))
    (N := (mag 10 (h + 1) * 2 ^ 125 : Nat)) (G := (mag 10 k * 2 ^ 125 : Nat)) (sg s) (sg t) (sg_cases s) (sg_cases t)
    (by omega) (by omega) (by omega) (by omega) ?_ ?_ ?_ ?_ ?_
  · refine ⟨key.1, fun he => ?_⟩
    have := key.2 he
    have h125 : 0 < 2 ^ 125 := Nat.two_pow_pos 125
    exact_mod_cast Nat.le_of_mul_le_mul_right (by exact_mod_cast this) h125
  · rcases Nat.eq_zero_or_pos h with rfl | h0
    · left
      rw [mag_small (by norm_num)]
      simp
    · right
      have := hlo h0
      have e : (mag 10 (h - 1) + mag 10 h) * 2 ^ 124 * 2 = mag 10 (h - 1) * 2 ^ 125 + mag 10 h * 2 ^ 125 := by ring
      omega
  · have e : (mag 10 h + mag 10 (h + 1)) * 2 ^ 124 * 2 = mag 10 h * 2 ^ 125 + mag 10 (h + 1) * 2 ^ 125 := by ring
    omega
  · rcases Nat.eq_zero_or_pos h with rfl | h0
    · left
      rw [mag_small (by norm_num)]
      simp
    · right
      have h1 : mag 10 (h - 1) < mag 10 h := mag_lt (by omega)
      exact_mod_cast Nat.mul_lt_mul_of_pos_right h1 (Nat.two_pow_pos 125)
  · have h1 : mag 10 h < mag 10 (h + 1) := mag_lt (by omega)
    exact_mod_cast Nat.mul_lt_mul_of_pos_right h1 (Nat.two_pow_pos 125)
  · rcases Nat.lt_trichotomy k h with hlt2 | rfl | hgt
    · right; left
      have h1 : mag 10 k ≤ mag 10 (h - 1) := mag_le (by omega)
      have h2 : mag 10 k < mag 10 h := mag_lt hlt2
      have h3 := Nat.mul_le_mul_right (2 ^ 125) h1
      have h4 := Nat.mul_lt_mul_of_pos_right h2 (Nat.two_pow_pos 125)
      constructor
      · intro hz
        have : mag 10 h * 2 ^ 125 = 0 := by exact_mod_cast hz
        omega
      · exact_mod_cast h3
    · exact Or.inl rfl
    · right; right
      have h1 : mag 10 (h + 1) ≤ mag 10 k := mag_le hgt
      exact_mod_cast Nat.mul_le_mul_right (2 ^ 125) h1

example : floatToHalf 0x3F801000 = 0x3C01 ∧ single.Finite 0x3F801000 ∧ floatToHalf 0x33000001 = 1 ∧
    floatToHalf 0x33000000 = 1 ∧ floatToHalf 0x32FFFFFF = 0 := by
  unfold Fmt.Finite
  decide

/-- **C84**: exactly the numbers of at least 65520, infinities and nothing else become infinite, with the same sign. -/
theorem C84_overflow {x : Nat} (hx : single.Bits x) :
    (half.Inf (floatToHalf x) ↔ single.Inf x ∨ single.Finite x ∧ 65520 ≤ |single.value x|) ∧
      half.sign (floatToHalf x) = single.sign x := by
  obtain ⟨s, f, hs, hf, rfl⟩ := split32 hx
  have hn := narrow_lt f
  rw [floatToHalf_eq hs hf, inf16 hn, inf32 hf, finite32 hf, sign16 hn, sign32 hf]
  refine ⟨?_, rfl⟩
  by_cases hfin : f < 255 * 2 ^ 23
  · have hb := between hfin
    have e : |single.value (s * 2 ^ 31 + f)| = ((mag 23 f : Nat) : Rat) / 2 ^ 149 := by
      rw [value32 hf, abs_div, abs_of_pos (show (0 : Rat) < 2 ^ 149 by norm_num), ← Int.cast_abs]
      rcases sg_cases s with h | h <;> rw [h] <;> simp
    have e2 : 65520 ≤ |single.value (s * 2 ^ 31 + f)| ↔ 65520 * 2 ^ 149 ≤ mag 23 f := by
      rw [e, le_div_iff₀ (by norm_num)]
      exact_mod_cast Iff.rfl
    rw [e2]
    constructor
    · intro h
      right
      refine ⟨hfin, ?_⟩
      have h1 := hb.lower (by rw [h]; norm_num)
      rw [h] at h1
      have e2 : (mag 10 (0x7C00 - 1) + mag 10 0x7C00) * 2 ^ 124 = 65520 * 2 ^ 149 := by decide
      rw [e2] at h1
      exact h1
    · rintro (h | ⟨_, h⟩)
      · omega
      · by_contra hc
        have h1 := hb.upper (by have := hb.le; omega)
        have h2 : mag 10 (narrow f) ≤ mag 10 (0x7C00 - 1) := mag_le (by have := hb.le; omega)
        have h3 : mag 10 (narrow f + 1) ≤ mag 10 0x7C00 := mag_le (by have := hb.le; omega)
        have h4 := Nat.mul_le_mul_right (2 ^ 124) (Nat.add_le_add h2 h3)
        have e2 : (mag 10 (0x7C00 - 1) + mag 10 0x7C00) * 2 ^ 124 = 65520 * 2 ^ 149 := by decide
        omega
  · unfold narrow
    rw [if_pos (by omega)]
    by_cases h : f > 255 * 2 ^ 23
    · rw [if_pos h]
      constructor
      · intro h; omega
      · rintro (h | ⟨h, _⟩) <;> omega
    · rw [if_neg h]
      constructor
      · intro _; left; omega
      · intro _; rfl

example : half.Inf (floatToHalf 0x477FF000) ∧ half.Finite (floatToHalf 0x477FEFFF) := by
  unfold Fmt.Inf Fmt.Finite
  decide

/-- **C84**: exactly the NaNs become NaNs. -/
theorem C84_nan {x : Nat} (hx : single.Bits x) : half.NaN (floatToHalf x) ↔ single.NaN x := by
  obtain ⟨s, f, hs, hf, rfl⟩ := split32 hx
  have hn := narrow_lt f
  rw [floatToHalf_eq hs hf, nan16 hn, nan32 hf]
  by_cases hfin : f < 255 * 2 ^ 23
  · have := (between hfin).le
    omega
  · unfold narrow
    rw [if_pos (by omega)]
    split <;> omega

example : half.NaN (floatToHalf 0x7F800001) := by
  unfold Fmt.NaN
  decide

/-- **C84**: nothing is lost on the way from half to single precision and back, except for the bits of a NaN. -/
theorem C84_round_trip {h : Nat} (hh : half.Bits h) (hn : ¬ half.NaN h) : floatToHalf (halfToFloat h) = h := by
  obtain ⟨s, f, hs, hf, rfl⟩ := split16 hh
  rw [nan16 hf] at hn
  rw [halfToFloat_eq hs hf, floatToHalf_eq hs (widen_lt hf)]
  by_cases h1 : f < 0x7C00
  · rw [narrow_widen h1]
  · have : f = 0x7C00 := by omega
    subst this
    have : narrow (widen 0x7C00) = 0x7C00 := by decide
    rw [this]

example : floatToHalf (halfToFloat 0x8001) = 0x8001 ∧ ¬ half.NaN 0x8001 ∧ floatToHalf (halfToFloat 0x7C01) ≠ 0x7C01 := by
  unfold Fmt.NaN
  decide

/-- **C84**: the order is kept. -/
theorem C84_mono {x y : Nat} (hx : single.Bits x) (hy : single.Bits y) (fx : single.Finite x) (fy : single.Finite y)
    (hxy : single.value x ≤ single.value y) (gx : half.Finite (floatToHalf x)) (gy : half.Finite (floatToHalf y)) :
    half.value (floatToHalf x) ≤ half.value (floatToHalf y) := by
  obtain ⟨s, f, hs, hf, rfl⟩ := split32 hx
  obtain ⟨t, g, ht, hg, rfl⟩ := split32 hy
  rw [finite32 hf] at fx
  rw [finite32 hg] at fy
  have hn := narrow_lt f
  have hm := narrow_lt g
  rw [floatToHalf_eq hs hf, value16 hn, floatToHalf_eq ht hg, value16 hm, div_le_div_iff_of_pos_right (by norm_num), Int.cast_le]
  rw [value32 hf, value32 hg, div_le_div_iff_of_pos_right (by norm_num), Int.cast_le] at hxy
  have hb := between fx
  have hc := between fy
  have zero : ∀ {f h}, Between f h → mag 23 f = 0 → h = 0 := by
    intro f h b h0
    by_contra hne
    have h1 := b.lower (by omega)
    have h2 : mag 10 0 < mag 10 h := mag_lt (by omega)
    have h3 : 0 < (mag 10 (h - 1) + mag 10 h) * 2 ^ 124 := Nat.mul_pos (by omega) (Nat.two_pow_pos 124)
    omega
  have m0 : mag 10 0 = 0 := by decide
  rcases sg_cases s with h1 | h1 <;> rcases sg_cases t with h2 | h2 <;> rw [h1, h2] at hxy ⊢
  · have := mag_le (p := 10) (hb.mono hc (by omega))
    omega
  · have h3 := zero hb (by omega)
    have h4 := zero hc (by omega)
    rw [h3, h4, m0]; simp
  · omega
  · have := mag_le (p := 10) (hc.mono hb (by omega))
    omega

example : single.Finite 0xBF801000 ∧ half.Finite (floatToHalf 0xBF801000) ∧ floatToHalf 0xBF801000 = 0xBC01 ∧
    half.Finite (floatToHalf 0x3F801000) := by
  unfold Fmt.Finite
  decide

/-- **C84**, refuted: without hardware support a number in the middle between two half precision numbers isn't rounded to
the even one, as the comments in kernel/generic.cpp and kernel/merge.cpp say and as it is done with hardware support. -/
theorem C84_even_refuted : ∃ x, single.Bits x ∧ single.Finite x ∧ ¬ NearestEven (single.value x) (floatToHalf x) := by
  refine ⟨0x3F801000, by unfold Fmt.Bits single; norm_num, by unfold Fmt.Finite; decide, ?_⟩
  intro h
  obtain ⟨_, h2⟩ := h 0x3C00 (by unfold Fmt.Bits half; norm_num) (by unfold Fmt.Finite; decide)
  have e : floatToHalf 0x3F801000 = 0x3C01 := by decide
  rw [e] at h2
  have a := value32 (s := 0) (f := 0x3F801000) (by norm_num)
  have b := value16 (s := 0) (f := 0x3C00) (by norm_num)
  have c := value16 (s := 0) (f := 0x3C01) (by norm_num)
  have m1 : mag 23 0x3F801000 = 2 ^ 149 + 2 ^ 138 := by decide
  have m2 : mag 10 0x3C00 = 2 ^ 24 := by decide
  have m3 : mag 10 0x3C01 = 2 ^ 24 + 2 ^ 14 := by decide
  rw [m1] at a
  rw [m2] at b
  rw [m3] at c
  unfold sg at a b c
  norm_num at a b c
  rw [a, b, c] at h2
  norm_num [abs_div, abs_of_pos, abs_of_neg] at h2

/-- `isInfHalf` says whether a number isn't finite: also NaNs are meant. -/
theorem C84_isInf {h : Nat} (hh : half.Bits h) : isInfHalf h = true ↔ ¬ half.Finite h := by
  obtain ⟨s, f, hs, hf, rfl⟩ := split16 hh
  rw [finite16 hf]
  unfold isInfHalf
  rw [decide_eq_true_iff]
  have e : ∀ a : Nat, a &&& 0x7C00 = a / 2 ^ 10 % 2 ^ 5 * 2 ^ 10 := by
    intro a
    have e0 : (0x7C00 : Nat) = (2 ^ 5 - 1) * 2 ^ 10 := by norm_num
    apply Nat.eq_of_testBit_eq
    intro i
    rw [e0, Nat.testBit_and, Nat.mul_comm (2 ^ 5 - 1), Nat.testBit_two_pow_mul, Nat.mul_comm (_ % _), Nat.testBit_two_pow_mul,
      Nat.testBit_two_pow_sub_one, Nat.testBit_mod_two_pow, Nat.testBit_div_two_pow]
    by_cases h : 10 ≤ i
    · rw [show i - 10 + 10 = i by omega]
      by_cases h2 : i - 10 < 5 <;> simp [h, h2]
    · simp [h]
  rw [e]
  omega

example : isInfHalf 0xFC00 = true ∧ isInfHalf 0x7BFF = false := by decide

end VS.Half
