import Verif.Resample.Spec
import Verif.Gain.LemmasLoop

/-!
# Conversion of a sample
-/

namespace VS.Resample

set_option maxRecDepth 10000

open VS VS.Audio VS.Gain

theorem rnd_dyadic (F : DFloats) (m : Int) (a b : Nat) (hm : m.natAbs ≤ 2 ^ 53) (ha : a ≤ 970) (hb : b ≤ 1074) :
    F.rnd (m * 2 ^ a / 2 ^ b) = m * 2 ^ a / 2 ^ b := by
  have p : ∀ k : Nat, (2 : Rat) ^ k ≠ 0 := fun k => by positivity
  by_cases h : a ≤ b
  · have e : (m : Rat) * 2 ^ a / 2 ^ b = m / 2 ^ (b - a) := by
      have : (2 : Rat) ^ b = 2 ^ (b - a) * 2 ^ a := by rw [← pow_add]; congr 1; omega
      rw [this, mul_div_mul_right _ _ (p a)]
    rw [e, F.rnd_frac m (b - a) hm (by omega)]
  · have e : (m : Rat) * 2 ^ a / 2 ^ b = m * 2 ^ (a - b) := by
      have : (2 : Rat) ^ a = 2 ^ (a - b) * 2 ^ b := by rw [← pow_add]; congr 1; omega
      rw [this, ← mul_assoc, mul_div_cancel_right₀ _ (p b)]
    rw [e, F.rnd_big m (a - b) hm (by omega)]

theorem dyadic_abs (m : Int) (a b : Nat) (hm : m.natAbs ≤ 2 ^ 53) (ha : a ≤ 140) : |(m : Rat) * 2 ^ a / 2 ^ b| ≤ 2 ^ 200 := by
  have h1 : |(m : Rat)| ≤ ((2 ^ 53 : Nat) : Rat) := abs_intCast_le hm
  have h2 : (1 : Rat) ≤ 2 ^ b := one_le_pow₀ (by norm_num)
  have h3 : (2 : Rat) ^ a ≤ 2 ^ 140 := pow_le_1024 ha
  rw [abs_div, abs_mul, abs_of_nonneg (a := (2 : Rat) ^ a) (by positivity), abs_of_nonneg (a := (2 : Rat) ^ b) (by positivity)]
  calc |(m : Rat)| * 2 ^ a / 2 ^ b ≤ |(m : Rat)| * 2 ^ a := div_le_self (by positivity) h2
    _ ≤ ((2 ^ 53 : Nat) : Rat) * 2 ^ 140 := mul_le_mul h1 h3 (by positivity) (by positivity)
    _ ≤ 2 ^ 200 := by norm_num

theorem rnd_abs (F : DFloats) (q : Rat) (h : |q| ≤ 2 ^ 200 + 1) : |F.rnd q| < 2 ^ 1024 := by
  have e : (2 : Rat) ^ 200 + 1 ≤ 2 ^ 201 := by norm_num
  have l : (2 : Rat) ^ 201 < 2 ^ 1024 := pow_lt_1024 (by omega)
  have h' := abs_le.1 h
  have u := F.rnd_mono q (2 ^ 201) (by linarith)
  have d := F.rnd_mono (-2 ^ 201) q (by linarith)
  have r1 : F.rnd (2 ^ 201) = 2 ^ 201 := by
    have := F.rnd_big 1 201 (by decide) (by omega)
    simpa using this
  have r2 : F.rnd (-2 ^ 201) = -2 ^ 201 := by
    have := F.rnd_big (-1) 201 (by decide) (by omega)
    simpa using this
  rw [r1] at u
  rw [r2] at d
  generalize (2 : Rat) ^ 1024 = B at *
  generalize (2 : Rat) ^ 201 = C at *
  rw [abs_lt]
  constructor <;> linarith

/-- A finite single precision number. -/
theorem f32_dyadic (x : Int) (v : Rat) (h : f32 x = .fin v) :
    ∃ (m : Int) (a b : Nat), v = m * 2 ^ a / 2 ^ b ∧ m.natAbs ≤ 2 ^ 31 ∧ a ≤ 105 ∧ b ≤ 149 := by
  unfold f32 at h
  simp only at h
  generalize he : x.toNat % 2 ^ 32 / 2 ^ 23 % 256 = e at h
  have he' : e < 256 := by omega
  generalize hm : x.toNat % 2 ^ 32 % 2 ^ 23 = m at h
  have hm' : m < 2 ^ 23 := by omega
  have key : ∃ (m' a b : Nat), (if e = 0 then (m : Rat) / 2 ^ 149 else if e < 150 then (2 ^ 23 + (m : Rat)) / 2 ^ (150 - e) else (2 ^ 23 + (m : Rat)) * 2 ^ (e - 150)) =
      (m' : Rat) * 2 ^ a / 2 ^ b ∧ m' ≤ 2 ^ 24 ∧ (e ≠ 255 → a ≤ 105 ∧ b ≤ 149) := by
    split
    · exact ⟨m, 0, 149, by rw [pow_zero, mul_one], by omega, fun _ => by omega⟩
    · split
      · exact ⟨2 ^ 23 + m, 0, 150 - e, by rw [pow_zero, mul_one]; push_cast; rfl, by omega, fun _ => by omega⟩
      · exact ⟨2 ^ 23 + m, e - 150, 0, by rw [pow_zero, div_one]; push_cast; rfl, by omega, fun _ => by omega⟩
  obtain ⟨m', a, b, k1, k2, k3⟩ := key
  rw [k1] at h
  by_cases e255 : e = 255
  · rw [if_pos e255] at h
    split at h <;> cases h
  · rw [if_neg e255] at h
    obtain ⟨k4, k5⟩ := k3 e255
    split at h
    · cases h
      exact ⟨-(m' : Int), a, b, by push_cast; ring, by omega, k4, k5⟩
    · cases h
      exact ⟨(m' : Int), a, b, by push_cast; ring, by omega, k4, k5⟩

/-- The value of a sample relative to full scale. -/
theorem value_dyadic {fmt : AudioFormat} (hf : IntFormat fmt) {x : Int} (hx : Spec.Stored fmt x) {v : Rat}
    (h : Spec.value fmt x = .fin v) :
    ∃ (m : Int) (a b : Nat), v * Spec.unit fmt = m * 2 ^ a / 2 ^ b ∧ m.natAbs ≤ 2 ^ 31 ∧ a ≤ 105 ∧ b ≤ 149 := by
  unfold Spec.value at h
  unfold Spec.unit
  by_cases ht : fmt.sampleType = 1
  · rw [if_pos ht] at h
    rw [if_pos ht, mul_one]
    exact f32_dyadic x v h
  · rw [if_neg ht] at h
    rw [if_neg ht]
    cases h
    have hb : 8 * fmt.bytesPerSample.toNat - 1 = 15 ∨ 8 * fmt.bytesPerSample.toNat - 1 = 31 := by
      have := hf.bytes
      split at this <;> omega
    rcases hx with hx | hx
    · exact absurd hx ht
    · rcases hb with hb | hb <;> rw [hb] at hx ⊢
      · exact ⟨x, 0, 15, by ring, by omega, by omega, by omega⟩
      · exact ⟨x, 0, 31, by ring, by omega, by omega, by omega⟩

theorem srcValue_eq (fmt : AudioFormat) (x : Int) : srcValue fmt x = Spec.value fmt x := rfl

theorem toNorm_eq (fmt : AudioFormat) : formatToNorm fmt = Spec.unit fmt := rfl

theorem half_pow {fmt : AudioFormat} (hf : IntFormat fmt) : ∃ k, k ≤ 31 ∧ Gain.Spec.half fmt = 2 ^ k := by
  refine ⟨(fmt.bitsPerSample - 1).toNat, ?_, rfl⟩
  have := hf.bits
  omega

theorem norm_int {fmt : AudioFormat} (ht : fmt.sampleType = 0) : normToFormat fmt = (Gain.Spec.half fmt : Rat) := by
  unfold normToFormat Gain.Spec.half
  rw [if_neg (by omega)]
  push_cast
  rfl

theorem shift_int {fmt : AudioFormat} (hf : IntFormat fmt) (ht : fmt.sampleType = 0) :
    formatOutputShift fmt = (Gain.Spec.step fmt : Rat) := by
  unfold formatOutputShift Gain.Spec.step containerBits
  rw [if_neg (by omega)]
  obtain ⟨⟨h1, h2⟩, h3⟩ := hf
  rw [h3]
  by_cases hb : fmt.bitsPerSample = 16
  · rw [if_pos hb, if_pos hb, hb]; norm_num
  · rw [if_neg hb, if_neg hb]
    have : 8 * (4 : Int).toNat - fmt.bitsPerSample.toNat = (32 - fmt.bitsPerSample).toNat := by
      have : (4 : Int).toNat = 4 := rfl
      omega
    rw [this]; push_cast; rfl

theorem limits_int (fmt : AudioFormat) : limits fmt = (((-Gain.Spec.half fmt : Int) : Rat), ((Gain.Spec.half fmt - 1 : Int) : Rat)) := by
  unfold limits Gain.Spec.half
  push_cast
  rfl

/-! ## Dither -/

theorem dither_range (dt : DitherType) (pos : Int) (c : Nat) : Spec.DitherRange dt (ditherValue dt pos c) := by
  unfold Spec.DitherRange ditherValue
  simp only
  generalize ditherHash pos c = h
  have key : ∀ u : UInt32, (0 : Rat) ≤ (u.toNat : Rat) / 2 ^ 32 ∧ (u.toNat : Rat) / 2 ^ 32 < 1 := by
    intro u
    have : u.toNat < 2 ^ 32 := u.toNat_lt
    have : (u.toNat : Rat) < 2 ^ 32 := by exact_mod_cast this
    constructor
    · positivity
    · rw [div_lt_one (by positivity)]; exact this
  have k1 := key h.toUInt32
  have k2 := key (h >>> 32).toUInt32
  cases dt
  · rfl
  · constructor <;> linarith
  · constructor <;> linarith

theorem dither_abs (dt : DitherType) (pos : Int) (c : Nat) : |ditherValue dt pos c| ≤ 1 := by
  have := dither_range dt pos c
  rw [abs_le]
  cases dt
  · have : ditherValue .none pos c = 0 := rfl
    rw [this]; norm_num
  · obtain ⟨a, b⟩ := this
    constructor <;> linarith
  · obtain ⟨a, b⟩ := this
    constructor <;> linarith

/-! ## One sample -/

theorem limited_mul (F : DFloats) {fmt : AudioFormat} (hf : IntFormat fmt) (L : Int) (h1 : -Gain.Spec.half fmt ≤ L) (h2 : L ≤ Gain.Spec.half fmt - 1) :
    ((Dbl.fin (L : Rat)).mul F (.fin (Gain.Spec.step fmt : Rat))).toInt fmt.bytesPerSample = .ok (L * Gain.Spec.step fmt) := by
  obtain ⟨s, hs, e1, e2, e3, e4, e5, e6⟩ := range_eq hf
  have p : (0 : Int) < 2 ^ s := by positivity
  have b1 : -(Gain.Spec.half fmt * 2 ^ s) ≤ L * 2 ^ s := by
    have := Int.mul_le_mul_of_nonneg_right h1 p.le
    linarith
  have b2 : L * 2 ^ s < Gain.Spec.half fmt * 2 ^ s := Int.mul_lt_mul_of_pos_right (by omega) p
  have m1 : (Dbl.fin (L : Rat)).mul F (.fin (Gain.Spec.step fmt : Rat)) = .fin ((L * Gain.Spec.step fmt : Int) : Rat) := by
    unfold Dbl.mul
    have e : (L : Rat) * (Gain.Spec.step fmt : Rat) = ((L * Gain.Spec.step fmt : Int) : Rat) / 2 ^ 0 := by
      push_cast; ring
    have hb : (L * Gain.Spec.step fmt).natAbs ≤ 2 ^ 53 := by rw [e2]; omega
    simp only
    rw [e, F.rnd_frac _ 0 hb (by omega), pow_zero, div_one]
    apply ofRat_small
    exact lt_of_le_of_lt (abs_intCast_le hb) pow53
  rw [m1]
  apply toInt_int
  · rw [e2, ← e5]; exact b1
  · rw [e2, ← e5]; exact b2

theorem convert_ok (F : RFloats) {working dst : AudioFormat} (hw : IntFormat working) (hd : IntFormat dst)
    (hdt : dst.sampleType = 0 ∨ dst.sampleType = 1) (dt : DitherType) (pos : Int) (c : Nat) (x : Int) (hx : Spec.Stored working x)
    (hnan : dst.sampleType = 0 → Spec.value working x ≠ .nan) :
    ∃ out clip, convertSample F working dst dt pos c x = .ok (out, clip) ∧
      Spec.Converted F working dst (ditherValue dt pos c) x out clip := by
  have hun : 0 < Spec.unit working := by unfold Spec.unit; split <;> positivity
  unfold convertSample
  rw [srcValue_eq]
  rcases hdt with ht | ht
  · rw [if_neg (by omega)]
    have hsc : scale working dst = Spec.unit working * Gain.Spec.half dst := by
      unfold scale; rw [toNorm_eq, norm_int ht]
    obtain ⟨k, hk, hkk⟩ := half_pow hd
    have hhp : (0 : Rat) < Gain.Spec.half dst := by rw [hkk]; push_cast; positivity
    obtain ⟨-, -, -, -, hpos, -⟩ := range_eq hd
    have hscp : 0 < scale working dst := by rw [hsc]; exact mul_pos hun hhp
    have da := dither_abs dt pos c
    generalize ditherValue dt pos c = d at *
    rw [limits_int, shift_int hd ht]
    cases hv : Spec.value working x with
    | nan => exact absurd hv (hnan ht)
    | inf neg =>
      have e : Dbl.mac F.toDFloats (.fin d) (.inf neg) (.fin (scale working dst)) = .inf neg := by
        have m : Dbl.mul F.toDFloats (.inf neg) (.fin (scale working dst)) = .inf neg := by
          unfold Dbl.mul
          simp only
          rw [if_neg hscp.ne']
          have : decide (scale working dst < 0) = false := by simpa using hscp.le
          rw [this]; simp
        unfold Dbl.mac
        split
        · simp only [m]; rfl
        · rw [m]; rfl
      rw [e]
      simp only [Dbl.round]
      cases neg
      · simp only [Dbl.clamp]
        rw [limited_mul F.toDFloats hd _ (by omega) (by omega)]
        exact ⟨_, true, rfl, .intInf false ht hv rfl rfl⟩
      · simp only [Dbl.clamp]
        rw [limited_mul F.toDFloats hd _ (by omega) (by omega)]
        exact ⟨_, true, rfl, .intInf true ht hv rfl rfl⟩
    | fin v =>
      obtain ⟨m, a, b, e1, e2, e3, e4⟩ := value_dyadic hw hx hv
      have ep : v * scale working dst = m * 2 ^ (a + k) / 2 ^ b := by
        rw [hsc, ← mul_assoc, e1, hkk]; push_cast; rw [pow_add]; ring
      have er : F.rnd (v * scale working dst) = v * scale working dst := by
        rw [ep]; exact rnd_dyadic F.toDFloats m (a + k) b (by omega) (by omega) (by omega)
      have ea : |v * scale working dst| ≤ 2 ^ 200 := by rw [ep]; exact dyadic_abs m (a + k) b (by omega) (by omega)
      have ea2 : |d + v * scale working dst| ≤ 2 ^ 200 + 1 := by
        have := abs_add_le d (v * scale working dst)
        linarith
      have esum := rnd_abs F.toDFloats _ ea2
      have e : Dbl.mac F.toDFloats (.fin d) (.fin v) (.fin (scale working dst)) = .fin (F.rnd (d + v * scale working dst)) := by
        unfold Dbl.mac
        split
        · simp only; exact ofRat_small esum
        · have l : (2 : Rat) ^ 200 < 2 ^ 1024 := pow_lt_1024 (by omega)
          have : Dbl.mul F.toDFloats (.fin v) (.fin (scale working dst)) = .fin (v * scale working dst) := by
            unfold Dbl.mul
            simp only
            rw [er]
            exact ofRat_small (lt_of_le_of_lt ea l)
          rw [this]
          unfold Dbl.add
          simp only
          exact ofRat_small esum
      rw [e]
      have eq : d + v * scale working dst = v * Spec.unit working * Gain.Spec.half dst + d := by rw [hsc]; ring
      rw [eq]
      generalize hr : F.rnd (v * Spec.unit working * Gain.Spec.half dst + d) = r
      have hn : Gain.Spec.Nearest r (Dbl.roundAway r) := nearest_round r
      rw [← hr] at hn
      simp only [Dbl.round, Dbl.clamp]
      rw [hr] at hn
      generalize Dbl.roundAway r = n at *
      rw [← hr] at hn
      by_cases c1 : n < -Gain.Spec.half dst
      · rw [if_pos (by exact_mod_cast c1), limited_mul F.toDFloats hd _ (by omega) (by omega)]
        refine ⟨_, true, ?_, .int v n ht hv hn ⟨by rw [if_pos c1], by simp [c1]⟩⟩
        simp only [Res.bind_ok, Res.pure_eq, Res.ok.injEq, Prod.mk.injEq, true_and]
        simp only [Dbl.ne, ne_eq, Dbl.fin.injEq, decide_eq_true_eq]
        intro h; have := Int.cast_injective (α := Rat) h; omega
      · rw [if_neg (by intro h; exact c1 (by exact_mod_cast h))]
        by_cases c2 : Gain.Spec.half dst - 1 < n
        · rw [if_pos (by exact_mod_cast c2), limited_mul F.toDFloats hd _ (by omega) (by omega)]
          refine ⟨_, true, ?_, .int v n ht hv hn ⟨by rw [if_neg c1, if_pos c2], by simp; omega⟩⟩
          simp only [Res.bind_ok, Res.pure_eq, Res.ok.injEq, Prod.mk.injEq, true_and]
          simp only [Dbl.ne, ne_eq, Dbl.fin.injEq, decide_eq_true_eq]
          intro h; have := Int.cast_injective (α := Rat) h; omega
        · rw [if_neg (by intro h; exact c2 (by exact_mod_cast h)), limited_mul F.toDFloats hd _ (by omega) (by omega)]
          refine ⟨_, false, ?_, .int v n ht hv hn ⟨by rw [if_neg c1, if_neg c2], by simp; omega⟩⟩
          simp [Dbl.ne]
  · rw [if_pos ht]
    have hsc : scale working dst = Spec.unit working := by
      unfold scale normToFormat; rw [toNorm_eq, if_pos ht, mul_one]
    rw [hsc]
    cases hv : Spec.value working x with
    | nan => exact ⟨_, _, rfl, .floatInf ht (by rw [hv]; simp) (by rw [hv]; rfl) rfl⟩
    | inf neg =>
      refine ⟨_, _, rfl, .floatInf ht (by rw [hv]; simp) ?_ rfl⟩
      rw [hv]
      unfold Dbl.mul
      simp only
      rw [if_neg hun.ne']
      have : decide (Spec.unit working < 0) = false := by simpa using hun.le
      rw [this]; simp
    | fin v =>
      obtain ⟨m, a, b, e1, e2, e3, e4⟩ := value_dyadic hw hx hv
      refine ⟨_, _, rfl, .float v ht hv ?_ rfl⟩
      have l : (2 : Rat) ^ 200 < 2 ^ 1024 := pow_lt_1024 (by omega)
      unfold Dbl.mul
      simp only
      rw [e1, rnd_dyadic F.toDFloats m a b (by omega) (by omega) (by omega), ofRat_small (lt_of_le_of_lt (dyadic_abs m a b (by omega) (by omega)) l)]

theorem gather_eq (F : RFloats) {fmt : AudioFormat} (hf : IntFormat fmt) (x : Int) (hx : Spec.Stored fmt x) :
    gatherSample F fmt x = Spec.normalised F fmt x := by
  have hun : 0 < Spec.unit fmt := by unfold Spec.unit; split <;> positivity
  unfold gatherSample Spec.normalised
  rw [srcValue_eq, toNorm_eq]
  by_cases ht : fmt.sampleType = 1
  · rw [if_pos ht]
    have hu : Spec.unit fmt = 1 := by unfold Spec.unit; rw [if_pos ht]
    have hval : Spec.value fmt x = f32 x := by unfold Spec.value; rw [if_pos ht]
    rw [hu, hval]
    cases hv : f32 x with
    | nan => rfl
    | inf neg =>
      have : decide ((1 : Rat) < 0) = false := by norm_num
      unfold Dbl.mul
      simp only
      rw [if_neg (by norm_num), this]
      simp
    | fin v =>
      obtain ⟨m, a, b, e1, e2, e3, e4⟩ := f32_dyadic x v hv
      have l : (2 : Rat) ^ 200 < 2 ^ 1024 := pow_lt_1024 (by omega)
      unfold Dbl.mul
      simp only
      rw [mul_one, e1, rnd_dyadic F.toDFloats m a b (by omega) (by omega) (by omega), ofRat_small (lt_of_le_of_lt (dyadic_abs m a b (by omega) (by omega)) l)]
  · rw [if_neg ht]
    have hval : Spec.value fmt x = .fin x := by unfold Spec.value; rw [if_neg ht]
    obtain ⟨m, a, b, e1, e2, e3, e4⟩ := value_dyadic hf hx hval
    rw [hval]
    have l : (2 : Rat) ^ 200 < 2 ^ 1024 := pow_lt_1024 (by omega)
    unfold Dbl.mul
    simp only
    rw [e1, rnd_dyadic F.toDFloats m a b (by omega) (by omega) (by omega), ofRat_small (lt_of_le_of_lt (dyadic_abs m a b (by omega) (by omega)) l)]

end VS.Resample
