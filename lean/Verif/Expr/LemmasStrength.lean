import Verif.Expr.LemmasLocal

/-! # Expr: strength reduction and fused operators are right for real numbers -/

namespace VS.Expr

variable {px : Mem → Nat → ℝ}

@[simp] theorem ev_fmadd (n : Option Nat) (x y z : E ℝ) :
    ev px (.tern n (.fma .fmadd) x y z) = ev px y * ev px z + ev px x := rfl
@[simp] theorem ev_fmsub (n : Option Nat) (x y z : E ℝ) :
    ev px (.tern n (.fma .fmsub) x y z) = ev px y * ev px z - ev px x := rfl
@[simp] theorem ev_fnmadd (n : Option Nat) (x y z : E ℝ) :
    ev px (.tern n (.fma .fnmadd) x y z) = -(ev px y * ev px z) + ev px x := rfl
@[simp] theorem ev_fnmsub (n : Option Nat) (x y z : E ℝ) :
    ev px (.tern n (.fma .fnmsub) x y z) = -(ev px y * ev px z) - ev px x := rfl

theorem zeroSub_sound : ∀ e e', zeroSub realArith e = some e' → Pres px e e' := by
  intro e e' h
  unfold zeroSub at h
  split at h
  · split at h
    · rename_i hc
      rw [isVal_real] at hc
      cases h
      rintro ⟨h1, h2, h3⟩
      exact ⟨⟨h2, trivial⟩, by simp [hc]⟩
    · cases h
  · cases h

theorem mulNeg_sound : ∀ e e', mulNeg realArith e = some e' → Pres px e e' := by
  intro e e' h
  unfold mulNeg at h
  split at h
  · split at h
    · rename_i hc
      rw [isVal_real] at hc
      cases h
      rintro ⟨h1, h2, h3⟩
      exact ⟨⟨h1, trivial⟩, by simp [hc]⟩
    · cases h
  · split at h
    · rename_i hc
      rw [isVal_real] at hc
      cases h
      rintro ⟨h1, h2, h3⟩
      exact ⟨⟨h1, trivial⟩, by simp [hc, div_neg]⟩
    · cases h
  · cases h

theorem addNeg_sound : ∀ e e', addNeg e = some e' → Pres px e e' := by
  intro e e' h
  unfold addNeg at h
  split at h
  · cases h
    rintro ⟨h1, ⟨h2, h4⟩, h3⟩
    exact ⟨⟨h1, by simpa using h2, trivial⟩, by simp only [ev_sub, ev_add, ev_neg, ev_setVn]; ring⟩
  · cases h
    rintro ⟨h1, ⟨h2, h4⟩, h3⟩
    exact ⟨⟨h1, by simpa using h2, trivial⟩, by simp only [ev_sub, ev_add, ev_neg, ev_setVn]; ring⟩
  · cases h

theorem negAdd_sound : ∀ e e', negAdd e = some e' → Pres px e e' := by
  intro e e' h
  unfold negAdd at h
  split at h
  · cases h
    rintro ⟨⟨h1, h4⟩, h2, h3⟩
    exact ⟨⟨h2, by simpa using h1, trivial⟩, by simp only [ev_sub, ev_add, ev_neg, ev_setVn]; ring⟩
  · cases h

theorem negSub_sound : ∀ e e', negSub e = some e' → Pres px e e' := by
  intro e e' h
  unfold negSub at h
  split at h
  · cases h
    rintro ⟨⟨h1, h2, h4⟩, h3⟩
    exact ⟨⟨h2, h1, trivial⟩, by simp only [ev_sub, ev_neg]; ring⟩
  · cases h

theorem mulTwo_sound (twice : E ℝ → Bool → Bool) (p : Bool) : ∀ e e', mulTwo realArith twice p e = some e' → Pres px e e' := by
  intro e e' h
  unfold mulTwo at h
  split at h
  · split at h
    · rename_i hc
      rw [Bool.and_eq_true, isVal_real] at hc
      cases h
      rintro ⟨h1, h2, h3⟩
      exact ⟨⟨h1, by simpa using h1, trivial⟩, by simp only [ev_add, ev_mul, ev_setVn, ev_clone, ev_const, hc.1]; push_cast; ring⟩
    · cases h
  · cases h

theorem divConst_sound : ∀ e e', divConst realArith e = some e' → Pres px e e' := by
  intro e e' h
  unfold divConst at h
  split at h
  · simp only at h
    split at h
    · cases h
      rintro ⟨h1, h2, h3⟩
      exact ⟨⟨h1, trivial, trivial⟩, by simp [div_eq_mul_inv]⟩
    · cases h
  · cases h

theorem recipMul_sound : ∀ e e', recipMul realArith e = some e' → Pres px e e' := by
  intro e e' h
  unfold recipMul at h
  split at h
  · split at h
    · rename_i hc
      rw [isVal_real] at hc
      cases h
      rintro ⟨⟨h1, h2, h4⟩, h5, h3⟩
      refine ⟨⟨h5, by simpa using h2, by rw [ev_setVn]; exact h4⟩, ?_⟩
      simp only [ev_div, ev_mul, ev_setVn, ev_const, hc]; push_cast; ring
    · cases h
  · cases h

theorem mulRecip_sound : ∀ e e', mulRecip realArith e = some e' → Pres px e e' := by
  intro e e' h
  unfold mulRecip at h
  split at h
  · split at h
    · rename_i hc
      rw [isVal_real] at hc
      cases h
      rintro ⟨h1, ⟨h5, h2, h4⟩, h3⟩
      refine ⟨⟨h1, by simpa using h2, by rw [ev_setVn]; exact h4⟩, ?_⟩
      simp only [ev_div, ev_mul, ev_setVn, ev_const, hc]; push_cast; ring
    · cases h
  · cases h

theorem divMul_sound : ∀ e e', divMul e = some e' → Pres px e e' := by
  intro e e' h
  unfold divMul at h
  split at h
  · cases h
    rintro ⟨⟨h1, h2, h4⟩, h5, h3⟩
    exact ⟨⟨⟨h1, h5, trivial⟩, h2, h4⟩, by simp only [ev_div, ev_mul]; ring⟩
  · cases h

theorem mulDiv_sound : ∀ e e', mulDiv e = some e' → Pres px e e' := by
  intro e e' h
  unfold mulDiv at h
  split at h
  · cases h
    rintro ⟨h1, ⟨h5, h2, h4⟩, h3⟩
    exact ⟨⟨⟨h1, h5, trivial⟩, h2, h4⟩, by simp only [ev_div, ev_mul]; ring⟩
  · cases h

theorem divDiv1_sound : ∀ e e', divDiv1 e = some e' → Pres px e e' := by
  intro e e' h
  unfold divDiv1 at h
  split at h
  · cases h
    rintro ⟨h1, ⟨h5, h2, h4⟩, h3⟩
    have h3 : ev px _ / ev px _ ≠ 0 := h3
    exact ⟨⟨⟨h1, h2, trivial⟩, h5, (div_ne_zero_iff.1 h3).1⟩, by
      simp only [ev_div, ev_mul]; rw [div_div_eq_mul_div]⟩
  · cases h

theorem divDiv2_sound : ∀ e e', divDiv2 e = some e' → Pres px e e' := by
  intro e e' h
  unfold divDiv2 at h
  split at h
  · cases h
    rintro ⟨⟨h1, h2, h4⟩, h5, h3⟩
    exact ⟨⟨h1, ⟨h2, h5, trivial⟩, mul_ne_zero h4 h3⟩, by simp only [ev_div, ev_mul]; rw [div_div]⟩
  · cases h

theorem powRoot_sound : ∀ e e', powRoot realArith e = some e' → Pres px e e' := by
  intro e e' h
  unfold powRoot at h
  split at h
  · split at h
    · rename_i n x m f hc
      simp only [Bool.and_eq_true, Bool.not_eq_true', real_isInteger_false] at hc
      cases h
      rintro ⟨h1, h2, h3⟩
      have h3 : PowOk (ev px x) f := h3
      have hx : 0 ≤ ev px x := by
        rcases h3 with h | ⟨h, _⟩ | ⟨_, h⟩
        · exact h.le
        · exact h.ge
        · exact absurd h hc.1
      refine ⟨⟨⟨by simpa using h1, trivial, ?_⟩, ?_⟩, ?_⟩
      · show PowOk (ev px x.clone) (f * ((2 : ℤ) : ℝ))
        rw [ev_clone]
        rcases h3 with h | ⟨h, h'⟩ | ⟨_, h⟩
        · exact Or.inl h
        · exact Or.inr (Or.inl ⟨h, by push_cast; linarith⟩)
        · exact absurd h hc.1
      · show 0 ≤ ev px x.clone ^ (f * ((2 : ℤ) : ℝ))
        rw [ev_clone]
        exact Real.rpow_nonneg hx _
      · rw [ev_sqrt, ev_pow, ev_pow, ev_clone, ev_const, ev_const]
        rw [real_mul, real_ofInt, Real.rpow_mul hx]
        push_cast
        rw [Real.rpow_two, Real.sqrt_sq (Real.rpow_nonneg hx _)]
    · cases h
  · cases h

theorem powNeg_sound : ∀ e e', powNeg realArith e = some e' → Pres px e e' := by
  intro e e' h
  unfold powNeg at h
  split at h
  · split at h
    · rename_i n x m f hc
      simp only [Bool.and_eq_true, real_isInteger, real_lt, real_ofInt, Int.cast_zero] at hc
      cases h
      rintro ⟨h1, h2, h3⟩
      have h3 : PowOk (ev px x) f := h3
      obtain ⟨⟨k, rfl⟩, hk⟩ := hc
      have hx : ev px x ≠ 0 := by
        intro h0
        rw [h0] at h3
        exact absurd h3.zero (not_lt.2 hk.le)
      have he : ev px x ^ (-(k : ℝ)) = (ev px x ^ (k : ℝ))⁻¹ := by
        rw [← Int.cast_neg, Real.rpow_intCast, Real.rpow_intCast, zpow_neg]
      have hne : ev px x ^ (k : ℝ) ≠ 0 := by rw [Real.rpow_intCast]; exact zpow_ne_zero _ hx
      refine ⟨⟨trivial, ⟨by simpa using h1, trivial, ?_⟩, ?_⟩, ?_⟩
      · show PowOk (ev px x.clone) (-(k : ℝ))
        rw [ev_clone, ← Int.cast_neg]
        exact PowOk.ofInt _ hx
      · show ev px x.clone ^ (-(k : ℝ)) ≠ 0
        rw [ev_clone, he]
        exact inv_ne_zero hne
      · rw [ev_div, ev_pow, ev_pow, ev_clone, ev_const, ev_const, ev_const, real_neg, he]
        simp
    · cases h
  · cases h

theorem emitIntegerPow_spec (e : E ℝ) : ∀ k, 1 ≤ k →
    ev px (emitIntegerPow e k) = ev px e ^ k ∧ (V px e → V px (emitIntegerPow e k)) := by
  intro k
  induction k using Nat.strongRecOn with
  | _ k ih =>
    intro hk
    unfold emitIntegerPow
    split
    · have : k = 1 := by omega
      subst this
      exact ⟨by simp, fun h => by simpa using h⟩
    · obtain ⟨a1, a2⟩ := ih ((k + 1) / 2) (by omega) (by omega)
      obtain ⟨b1, b2⟩ := ih (k - (k + 1) / 2) (by omega) (by omega)
      refine ⟨?_, fun h => ⟨a2 h, b2 h, trivial⟩⟩
      rw [ev_mul, a1, b1, ← pow_add]
      congr 1
      omega

theorem powInt_sound : Sound px (powInt realArith) := by
  intro e e' c h
  unfold powInt at h
  split at h
  · rename_i n x m f
    split at h
    · rename_i hc
      simp only [Bool.and_eq_true, real_isInteger, real_lt, real_ofInt, Int.cast_zero] at hc
      cases ht : realArith.toInt f with
      | none => rw [ht] at h; cases h
      | some i =>
        rw [ht] at h
        obtain ⟨⟨k, hk⟩, hpos⟩ := hc
        have := toInt_int hk ht
        subst this
        cases h
        rintro ⟨h1, h2, h3⟩
        rw [← hk] at hpos
        have hi : 0 < i := by exact_mod_cast hpos
        obtain ⟨p1, p2⟩ := emitIntegerPow_spec (px := px) x i.toNat (by omega)
        refine ⟨by simpa using p2 h1, ?_⟩
        rw [ev_setVn, p1, ev_pow, ev_const, ← hk]
        rw [Real.rpow_intCast, ← zpow_natCast, Int.toNat_of_nonneg hi.le]
    · cases h
      exact Pres.refl _
  · cases h
    exact Pres.refl _

/-- `applyStrengthReduction` is right for real numbers. -/
theorem strength_sound (twice : E ℝ → Bool → Bool) : Sound px (applyStrengthReduction realArith twice) := by
  refine Sound.postorder (fun p => Sound.list ?_) false
  intro r hr
  simp only [strengthRules, List.mem_cons, List.not_mem_nil, or_false] at hr
  rcases hr with rfl | rfl | rfl | rfl | rfl | rfl | rfl | rfl | rfl | rfl | rfl | rfl | rfl | rfl | rfl | rfl
  · exact Sound.rule zeroSub_sound
  · exact Sound.rule mulNeg_sound
  · exact Sound.rule addNeg_sound
  · exact Sound.rule negAdd_sound
  · exact Sound.rule negSub_sound
  · exact Sound.rule (mulTwo_sound twice p)
  · exact Sound.rule divConst_sound
  · exact Sound.rule recipMul_sound
  · exact Sound.rule mulRecip_sound
  · exact Sound.rule divMul_sound
  · exact Sound.rule mulDiv_sound
  · exact Sound.rule divDiv1_sound
  · exact Sound.rule divDiv2_sound
  · exact Sound.rule powRoot_sound
  · exact Sound.rule powNeg_sound
  · exact powInt_sound

/-! ## Fused operators -/

theorem fuseAddR_sound (el : Option Nat → Option Nat → Bool) : ∀ e e', fuseAddR el e = some e' → Pres px e e' := by
  intro e e' h
  unfold fuseAddR at h
  split at h
  · split at h
    · cases h
      rintro ⟨h1, ⟨h2, h3, h4⟩, h5⟩
      exact ⟨⟨h1, h2, h3⟩, by simp only [ev_fmadd, ev_add, ev_mul]; ring⟩
    · cases h
  · cases h

theorem fuseAddL_sound (el : Option Nat → Option Nat → Bool) : ∀ e e', fuseAddL el e = some e' → Pres px e e' := by
  intro e e' h
  unfold fuseAddL at h
  split at h
  · split at h
    · cases h
      rintro ⟨⟨h2, h3, h4⟩, h1, h5⟩
      exact ⟨⟨h1, h2, h3⟩, by simp only [ev_fmadd, ev_add, ev_mul]⟩
    · cases h
  · cases h

theorem fuseSubR_sound (el : Option Nat → Option Nat → Bool) : ∀ e e', fuseSubR el e = some e' → Pres px e e' := by
  intro e e' h
  unfold fuseSubR at h
  split at h
  · split at h
    · cases h
      rintro ⟨h1, ⟨h2, h3, h4⟩, h5⟩
      exact ⟨⟨h1, h2, h3⟩, by simp only [ev_fnmadd, ev_sub, ev_mul]; ring⟩
    · cases h
  · cases h

theorem fuseSubL_sound (el : Option Nat → Option Nat → Bool) : ∀ e e', fuseSubL el e = some e' → Pres px e e' := by
  intro e e' h
  unfold fuseSubL at h
  split at h
  · split at h
    · cases h
      rintro ⟨⟨h2, h3, h4⟩, h1, h5⟩
      exact ⟨⟨h1, h2, h3⟩, by simp only [ev_fmsub, ev_sub, ev_mul]⟩
    · cases h
  · cases h

theorem distribute_sound (el : Option Nat → Option Nat → Bool) :
    ∀ e e', distribute realArith el e = some e' → Pres px e e' := by
  intro e e' h
  unfold distribute at h
  split at h
  · split at h
    · cases h
      rintro ⟨⟨h2, h3, h4⟩, h1, h5⟩
      exact ⟨⟨⟨h2, trivial, trivial⟩, trivial, trivial⟩, by simp only [ev_add, ev_mul, ev_const, real_mul]; ring⟩
    · cases h
  · split at h
    · cases h
      rintro ⟨⟨h2, h3, h4⟩, h1, h5⟩
      exact ⟨⟨⟨h2, trivial, trivial⟩, trivial, trivial⟩, by simp only [ev_sub, ev_mul, ev_const, real_mul]; ring⟩
    · cases h
  · cases h

theorem negFma_sound (el : Option Nat → Option Nat → Bool) : ∀ e e', negFma el e = some e' → Pres px e e' := by
  intro e e' h
  unfold negFma at h
  split at h
  · split at h
    · rename_i k _ _ _ _
      cases h
      rintro ⟨⟨h2, h3, h4⟩, h1⟩
      refine ⟨⟨h2, h3, h4⟩, ?_⟩
      cases k <;> simp only [FmaType.neg, ev_fmadd, ev_fmsub, ev_fnmadd, ev_fnmsub, ev_neg] <;> ring
    · cases h
  · cases h

/-- Numbering keeps definedness and values. -/
theorem numbering_pres (e : E ℝ) [DecidableEq ℝ] : Pres px e (applyValueNumbering e) := by
  obtain ⟨L, _, _, h⟩ := applyValueNumbering_spec e
  intro hv
  refine ⟨?_, ?_⟩
  · rw [← V_clone, h, V_clone]; exact hv
  · rw [← ev_clone, h, ev_clone]

/-- `applyOpFusion` is right for real numbers. -/
theorem fusion_sound [DecidableEq ℝ] : Sound px (applyOpFusion realArith) := by
  intro e e' c h
  unfold applyOpFusion at h
  refine (numbering_pres e).trans ?_
  refine Sound.postorder (fun p => Sound.list ?_) false _ _ _ h
  intro r hr
  simp only [List.mem_cons, List.not_mem_nil, or_false] at hr
  rcases hr with rfl | rfl | rfl | rfl | rfl | rfl
  · exact Sound.rule (fuseAddR_sound _)
  · exact Sound.rule (fuseAddL_sound _)
  · exact Sound.rule (fuseSubR_sound _)
  · exact Sound.rule (fuseSubL_sound _)
  · exact Sound.rule (distribute_sound _)
  · exact Sound.rule (negFma_sound _)

end VS.Expr
