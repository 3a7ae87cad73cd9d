import Verif.Gain.Spec
import Verif.Audio.Lemmas
import Mathlib.Tactic.Ring
import Mathlib.Tactic.Linarith
import Mathlib.Tactic.NormNum
import Mathlib.Tactic.IntervalCases
import Mathlib.Tactic.FieldSimp
import Mathlib.Algebra.Order.Field.Basic
import Mathlib.Algebra.Order.AbsoluteValue.Basic
import Mathlib.Data.Rat.Cast.Order
import Mathlib.Data.Rat.Floor

/-!
# Rounding, clipping and the sample loop
-/

namespace VS.Gain
open VS VS.Audio

/-! ## Numbers -/

theorem nearest_round (q : Rat) : Spec.Nearest q (Dbl.roundAway q) := by
  unfold Spec.Nearest Dbl.roundAway
  have key : ∀ r : Rat, 0 ≤ r → |r - ((r + 1 / 2).floor : Int)| ≤ 1 / 2 ∧
      (|r - ((r + 1 / 2).floor : Int)| = 1 / 2 → |r| < |(((r + 1 / 2).floor : Int) : Rat)|) := by
    intro r hr
    have h1 := Rat.floor_le (r + 1 / 2)
    have h2 := Rat.lt_floor_add_one (r + 1 / 2)
    rw [Int.cast_add, Int.cast_one] at h2
    have h3 : (0 : Rat) ≤ ((r + 1 / 2).floor : Int) := by
      have : (0 : Int) ≤ (r + 1 / 2).floor := by rw [Rat.le_floor_iff]; push_cast; linarith
      exact_mod_cast this
    generalize (((r + 1 / 2).floor : Int) : Rat) = z at *
    refine ⟨abs_le.2 ⟨by linarith, by linarith⟩, ?_⟩
    intro h
    rw [abs_of_nonneg hr, abs_of_nonneg h3]
    rcases abs_eq (by norm_num : (0 : Rat) ≤ 1 / 2) |>.1 h with h | h <;> linarith
  split
  · exact key q (by assumption)
  · rename_i hn
    have := key (-q) (by linarith)
    have e : q - (((-(-q + 1 / 2).floor : Int) : Int) : Rat) = -(-q - ((-q + 1 / 2).floor : Int)) := by push_cast; ring
    rw [e, abs_neg]
    push_cast
    rw [abs_neg, ← abs_neg q]
    exact this

/-- The facts about an integer format. -/
structure IntFormat (fmt : AudioFormat) : Prop where
  bits : 16 ≤ fmt.bitsPerSample ∧ fmt.bitsPerSample ≤ 32
  bytes : fmt.bytesPerSample = if fmt.bitsPerSample = 16 then 2 else 4

theorem valid_bytes {ai : AudioInfo} (h : isValidAudioInfo ai = true) : IntFormat ai.format := by
  unfold isValidAudioInfo at h
  split at h
  · cases h
  rename_i h1
  unfold isValidAudioFormat at h1
  split at h1
  · simp at h1
  rename_i h3
  unfold isValidFormatArgs at h3
  split at h3
  · simp at h3
  split at h3
  · simp at h3
  split at h1
  · simp at h1
  split at h1
  · simp at h1
  split at h1
  · simp at h1
  refine ⟨by omega, ?_⟩
  split <;> omega

theorem range_eq {fmt : AudioFormat} (h : IntFormat fmt) : ∃ s : Nat, s ≤ 15 ∧ intSampleRange fmt = (2 ^ s, -Spec.half fmt, Spec.half fmt - 1) ∧
    Spec.step fmt = 2 ^ s ∧ 0 < Spec.half fmt ∧ Spec.half fmt ≤ 2 ^ 31 ∧
    Spec.half fmt * 2 ^ s = 2 ^ (8 * fmt.bytesPerSample.toNat - 1) ∧ Spec.half fmt * 2 ^ s ≤ 2 ^ 31 := by
  obtain ⟨⟨h1, h2⟩, h3⟩ := h
  unfold intSampleRange Spec.half Spec.step
  generalize fmt.bitsPerSample = b at *
  rw [h3]
  interval_cases b
  all_goals first
    | exact ⟨0, by decide, by decide, by decide, by decide, by decide, by decide, by decide⟩
    | exact ⟨1, by decide, by decide, by decide, by decide, by decide, by decide, by decide⟩
    | exact ⟨2, by decide, by decide, by decide, by decide, by decide, by decide, by decide⟩
    | exact ⟨3, by decide, by decide, by decide, by decide, by decide, by decide, by decide⟩
    | exact ⟨4, by decide, by decide, by decide, by decide, by decide, by decide, by decide⟩
    | exact ⟨5, by decide, by decide, by decide, by decide, by decide, by decide, by decide⟩
    | exact ⟨6, by decide, by decide, by decide, by decide, by decide, by decide, by decide⟩
    | exact ⟨7, by decide, by decide, by decide, by decide, by decide, by decide, by decide⟩
    | exact ⟨8, by decide, by decide, by decide, by decide, by decide, by decide, by decide⟩
    | exact ⟨9, by decide, by decide, by decide, by decide, by decide, by decide, by decide⟩
    | exact ⟨10, by decide, by decide, by decide, by decide, by decide, by decide, by decide⟩
    | exact ⟨11, by decide, by decide, by decide, by decide, by decide, by decide, by decide⟩
    | exact ⟨12, by decide, by decide, by decide, by decide, by decide, by decide, by decide⟩
    | exact ⟨13, by decide, by decide, by decide, by decide, by decide, by decide, by decide⟩
    | exact ⟨14, by decide, by decide, by decide, by decide, by decide, by decide, by decide⟩
    | exact ⟨15, by decide, by decide, by decide, by decide, by decide, by decide, by decide⟩

theorem ofRat_small {q : Rat} (h : |q| < 2 ^ 1024) : Dbl.ofRat q = .fin q := by
  unfold Dbl.ofRat
  rw [if_neg (not_le.2 h)]

theorem toInt_int {bytes : Int} {z : Int} (h1 : -(2 ^ (8 * bytes.toNat - 1) : Int) ≤ z) (h2 : z < 2 ^ (8 * bytes.toNat - 1)) :
    Dbl.toInt bytes (.fin z) = .ok z := by
  unfold Dbl.toInt
  have e : (if 0 ≤ (z : Rat) then (z : Rat).floor else -(-(z : Rat)).floor) = z := by
    split
    · exact Rat.floor_intCast z
    · rw [← Int.cast_neg, Rat.floor_intCast]; omega
  simp only [e]
  rw [if_pos ⟨h1, h2⟩]

theorem abs_intCast_le {z : Int} {k : Nat} (h : z.natAbs ≤ k) : |(z : Rat)| ≤ k := by
  rw [← Int.cast_abs]
  have : |z| ≤ (k : Int) := by rw [Int.abs_eq_natAbs]; omega
  exact_mod_cast this

theorem pow_lt_1024 {n : Nat} (h : n < 1024) : (2 : Rat) ^ n < 2 ^ 1024 := pow_lt_pow_right₀ (by norm_num) h

theorem pow_le_1024 {n m : Nat} (h : n ≤ m) : (2 : Rat) ^ n ≤ 2 ^ m := pow_le_pow_right₀ (by norm_num) h

theorem pow53 : (((2 ^ 53 : Nat)) : Rat) < 2 ^ 1024 := by
  rw [Nat.cast_pow]
  exact pow_lt_1024 (by omega)

theorem pow1000 : (2 : Rat) ^ 31 + 2 ≤ 2 ^ 1000 :=
  le_trans (by norm_num) (pow_le_1024 (n := 32) (m := 1000) (by omega))

/-- The heart of `quantizeIntSample`: `r` stands for the quotient. -/
theorem quantize_spec (F : DFloats) {fmt : AudioFormat} (hf : IntFormat fmt) (v : Dbl) (r : Rat)
    (hv : v.divStep F (intSampleRange fmt).1 = .fin r ∨
      ∃ s, v.divStep F (intSampleRange fmt).1 = .inf s ∧ 2 ^ 1000 ≤ |r| ∧ (s = true ↔ r < 0)) :
    ∃ out clip, (quantizeIntSample F v (intSampleRange fmt)).2 = clip ∧
      (quantizeIntSample F v (intSampleRange fmt)).1.toInt fmt.bytesPerSample = .ok out ∧
      Spec.Quantised fmt (r * Spec.step fmt) out clip := by
  obtain ⟨s, hs, e1, e2, e3, e4, e5, e6⟩ := range_eq hf
  have hstep : (Spec.step fmt : Rat) ≠ 0 := by
    rw [e2]; push_cast; positivity
  have hq : r * Spec.step fmt / Spec.step fmt = r := mul_div_cancel_right₀ _ hstep
  have hn := nearest_round r
  -- the limited value
  have main : ∀ L : Int, -Spec.half fmt ≤ L → L ≤ Spec.half fmt - 1 →
      Dbl.mul F (.fin (L : Rat)) (.fin ((2 ^ s : Nat) : Rat)) = .fin ((L * Spec.step fmt : Int) : Rat) ∧
      Dbl.toInt fmt.bytesPerSample (.fin ((L * Spec.step fmt : Int) : Rat)) = .ok (L * Spec.step fmt) := by
    intro L h1 h2
    have p : (0 : Int) < 2 ^ s := by positivity
    have b1 : -(Spec.half fmt * 2 ^ s) ≤ L * 2 ^ s := by
      have := Int.mul_le_mul_of_nonneg_right h1 p.le
      linarith
    have b2 : L * 2 ^ s < Spec.half fmt * 2 ^ s := Int.mul_lt_mul_of_pos_right (by omega) p
    constructor
    · unfold Dbl.mul
      have e : (L : Rat) * ((2 ^ s : Nat) : Rat) = ((L * Spec.step fmt : Int) : Rat) / 2 ^ 0 := by
        rw [e2]; push_cast; ring
      have hb : (L * Spec.step fmt).natAbs ≤ 2 ^ 53 := by rw [e2]; omega
      simp only
      rw [e, F.rnd_frac _ 0 hb (by omega), pow_zero, div_one]
      apply ofRat_small
      exact lt_of_le_of_lt (abs_intCast_le hb) pow53
    · apply toInt_int
      · rw [e2, ← e5]; exact b1
      · rw [e2, ← e5]; exact b2
  unfold quantizeIntSample
  rw [e1] at hv ⊢
  simp only at hv ⊢
  rcases hv with hv | ⟨sg, hv, hbig, hsg⟩
  · rw [hv]
    simp only [Dbl.round, Dbl.clamp]
    by_cases c1 : Dbl.roundAway r < -Spec.half fmt
    · rw [if_pos (by exact_mod_cast c1)]
      obtain ⟨m1, m2⟩ := main (-Spec.half fmt) (by omega) (by omega)
      refine ⟨_, true, ?_, by rw [m1]; exact m2, Dbl.roundAway r, by rw [hq]; exact hn, by rw [if_pos c1], by simp [c1]⟩
      simp only [Dbl.ne, ne_eq, Dbl.fin.injEq, decide_eq_true_eq]
      intro h; have := Int.cast_injective (α := Rat) h; omega
    · rw [if_neg (by intro h; exact c1 (by exact_mod_cast h))]
      by_cases c2 : Spec.half fmt - 1 < Dbl.roundAway r
      · rw [if_pos (by exact_mod_cast c2)]
        obtain ⟨m1, m2⟩ := main (Spec.half fmt - 1) (by omega) (by omega)
        refine ⟨_, true, ?_, by rw [m1]; exact m2, Dbl.roundAway r, by rw [hq]; exact hn, by rw [if_neg c1, if_pos c2], by simp; omega⟩
        simp only [Dbl.ne, ne_eq, Dbl.fin.injEq, decide_eq_true_eq]
        intro h; have := Int.cast_injective (α := Rat) h; omega
      · rw [if_neg (by intro h; exact c2 (by exact_mod_cast h))]
        obtain ⟨m1, m2⟩ := main (Dbl.roundAway r) (by omega) (by omega)
        refine ⟨_, false, ?_, by rw [m1]; exact m2, Dbl.roundAway r, by rw [hq]; exact hn, by rw [if_neg c1, if_neg c2], by simp; omega⟩
        simp [Dbl.ne]
  · rw [hv]
    have hh : (Spec.half fmt : Rat) ≤ 2 ^ 31 := by exact_mod_cast e4
    have hp := pow1000
    generalize (2 : Rat) ^ 1000 = B at *
    have hab := abs_le.1 hn.1
    cases sg
    · have hr : 0 ≤ r := by
        by_contra h
        exact absurd (hsg.2 (by linarith)) (by simp)
      rw [abs_of_nonneg hr] at hbig
      have hbig2 : Spec.half fmt - 1 < Dbl.roundAway r := by
        have : (Spec.half fmt : Rat) - 1 < Dbl.roundAway r := by linarith
        exact_mod_cast this
      obtain ⟨m1, m2⟩ := main (Spec.half fmt - 1) (by omega) (by omega)
      simp only [Dbl.round, Dbl.clamp]
      refine ⟨_, true, ?_, by rw [m1]; exact m2, Dbl.roundAway r, by rw [hq]; exact hn,
        by rw [if_neg (by omega), if_pos hbig2], by simp; omega⟩
      simp [Dbl.ne]
    · have hr : r < 0 := hsg.1 rfl
      rw [abs_of_neg hr] at hbig
      have hbig2 : Dbl.roundAway r < -Spec.half fmt := by
        have : (Dbl.roundAway r : Rat) < -(Spec.half fmt : Rat) := by linarith
        exact_mod_cast this
      obtain ⟨m1, m2⟩ := main (-Spec.half fmt) (by omega) (by omega)
      simp only [Dbl.round, Dbl.clamp]
      refine ⟨_, true, ?_, by rw [m1]; exact m2, Dbl.roundAway r, by rw [hq]; exact hn, by rw [if_pos hbig2], by simp; omega⟩
      simp [Dbl.ne]

/-- A computed value `q` that may have become infinite. -/
theorem quantize_rat (F : DFloats) {fmt : AudioFormat} (hf : IntFormat fmt) (q : Rat) :
    ∃ out clip, (quantizeIntSample F (Dbl.ofRat q) (intSampleRange fmt)).2 = clip ∧
      (quantizeIntSample F (Dbl.ofRat q) (intSampleRange fmt)).1.toInt fmt.bytesPerSample = .ok out ∧
      (∃ v, |v - q| ≤ |q| / 2 ^ 53 + 1 / 2 ^ 1050 ∧ Spec.Quantised fmt v out clip) ∧
      (∀ (m : Int) (e : Nat), q = m / 2 ^ e → m.natAbs ≤ 2 ^ 53 → e ≤ 1058 → Spec.Quantised fmt q out clip) := by
  obtain ⟨s, hs, e1, e2, -⟩ := range_eq hf
  have hstep : (Spec.step fmt : Rat) = 2 ^ s := by rw [e2]; push_cast; rfl
  have hpos : (0 : Rat) < 2 ^ s := by positivity
  have huge : ∀ x : Rat, 2 ^ 1024 ≤ |x| → 2 ^ 1000 ≤ |x / 2 ^ s| := by
    intro x hx
    rw [abs_div, abs_of_pos hpos, le_div_iff₀ hpos, ← pow_add]
    exact le_trans (pow_le_1024 (by omega)) hx
  have inexact : ∀ x : Rat, 0 ≤ |x| / 2 ^ 53 + 1 / (2 : Rat) ^ 1050 := by intro x; positivity
  have small : ∀ (m : Int) (e : Nat), m.natAbs ≤ 2 ^ 53 → |(m / 2 ^ e : Rat)| < 2 ^ 1024 := by
    intro m e hm
    rw [abs_div, abs_of_pos (by positivity : (0 : Rat) < 2 ^ e)]
    refine lt_of_le_of_lt (div_le_self (abs_nonneg _) (one_le_pow₀ (by norm_num))) ?_
    exact lt_of_le_of_lt (abs_intCast_le hm) pow53
  by_cases hq : 2 ^ 1024 ≤ |q|
  · obtain ⟨out, clip, h1, h2, h3⟩ := quantize_spec F hf (Dbl.ofRat q) (q / 2 ^ s) (by
      refine Or.inr ⟨decide (q < 0), ?_, huge q hq, ?_⟩
      · unfold Dbl.ofRat; rw [if_pos hq]; rfl
      · simp [div_neg_iff, hpos, not_lt.2 hpos.le])
    rw [hstep, div_mul_cancel₀ _ hpos.ne'] at h3
    refine ⟨out, clip, h1, h2, ⟨q, by simpa using inexact q, h3⟩, fun _ _ _ _ _ => h3⟩
  · have hq : |q| < 2 ^ 1024 := not_le.1 hq
    rw [ofRat_small hq]
    have hd : Dbl.divStep F (.fin q) (intSampleRange fmt).1 = Dbl.ofRat (F.rnd (q / 2 ^ s)) := by
      rw [e1]; simp [Dbl.divStep]
    obtain ⟨out, clip, h1, h2, h3⟩ := quantize_spec F hf (.fin q) (F.rnd (q / 2 ^ s)) (by
      rw [hd]
      unfold Dbl.ofRat
      split
      · rename_i h
        exact Or.inr ⟨_, rfl, le_trans (pow_le_1024 (by omega)) h, by simp⟩
      · exact Or.inl rfl)
    rw [hstep] at h3
    refine ⟨out, clip, h1, h2, ⟨_, ?_, h3⟩, ?_⟩
    · have hc := F.rnd_close (q / 2 ^ s)
      have e : F.rnd (q / 2 ^ s) * 2 ^ s - q = (F.rnd (q / 2 ^ s) - q / 2 ^ s) * 2 ^ s := by
        rw [sub_mul, div_mul_cancel₀ _ hpos.ne']
      rw [e, abs_mul, abs_of_pos hpos]
      calc |F.rnd (q / 2 ^ s) - q / 2 ^ s| * 2 ^ s ≤ (|q / 2 ^ s| / 2 ^ 53 + 1 / 2 ^ 1075) * 2 ^ s :=
            mul_le_mul_of_nonneg_right hc hpos.le
        _ = |q| / 2 ^ 53 + 2 ^ s / 2 ^ 1075 := by
            rw [abs_div, abs_of_pos hpos]; field_simp
        _ ≤ |q| / 2 ^ 53 + 1 / 2 ^ 1050 := by
            have : (2 : Rat) ^ s / 2 ^ 1075 ≤ 1 / 2 ^ 1050 := by
              rw [div_le_div_iff₀ (by positivity) (by positivity), one_mul, ← pow_add]
              exact pow_le_1024 (by omega)
            linarith
    · intro m e he hm hE
      have e' : q / 2 ^ s = m / 2 ^ (e + s) := by rw [he, pow_add, div_div]
      rw [e', F.rnd_frac m (e + s) hm (by omega), ← e', div_mul_cancel₀ _ hpos.ne'] at h3
      exact h3

end VS.Gain
