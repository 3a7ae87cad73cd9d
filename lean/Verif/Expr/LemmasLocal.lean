import Verif.Expr.Real

/-! # Expr: the local rules are right for real numbers -/

namespace VS.Expr

variable {px : Mem → Nat → ℝ}

@[simp] theorem ev_const (n : Option Nat) (a : ℝ) : ev px (.const n a) = a := rfl
@[simp] theorem ev_add (n : Option Nat) (l r : E ℝ) : ev px (.bin n .add l r) = ev px l + ev px r := rfl
@[simp] theorem ev_sub (n : Option Nat) (l r : E ℝ) : ev px (.bin n .sub l r) = ev px l - ev px r := rfl
@[simp] theorem ev_mul (n : Option Nat) (l r : E ℝ) : ev px (.bin n .mul l r) = ev px l * ev px r := rfl
@[simp] theorem ev_div (n : Option Nat) (l r : E ℝ) : ev px (.bin n .div l r) = ev px l / ev px r := rfl
@[simp] theorem ev_pow (n : Option Nat) (l r : E ℝ) : ev px (.bin n .pow l r) = ev px l ^ ev px r := rfl
@[simp] theorem ev_neg (n : Option Nat) (l : E ℝ) : ev px (.un n .neg l) = -ev px l := rfl
@[simp] theorem ev_abs (n : Option Nat) (l : E ℝ) : ev px (.un n .abs l) = |ev px l| := rfl
@[simp] theorem ev_sqrt (n : Option Nat) (l : E ℝ) : ev px (.un n .sqrt l) = Real.sqrt (ev px l) := rfl
@[simp] theorem ev_exp (n : Option Nat) (l : E ℝ) : ev px (.un n .exp l) = Real.exp (ev px l) := rfl
@[simp] theorem ev_log (n : Option Nat) (l : E ℝ) : ev px (.un n .log l) = Real.log (ev px l) := rfl

@[simp] theorem real_ofInt (n : ℤ) : realArith.ofInt n = (n : ℝ) := rfl
@[simp] theorem real_mul (x y : ℝ) : realArith.mul x y = x * y := rfl
@[simp] theorem real_add (x y : ℝ) : realArith.add x y = x + y := rfl
@[simp] theorem real_sub (x y : ℝ) : realArith.sub x y = x - y := rfl
@[simp] theorem real_div (x y : ℝ) : realArith.div x y = x / y := rfl
@[simp] theorem real_neg (x : ℝ) : realArith.neg x = -x := rfl
@[simp] theorem real_abs (x : ℝ) : realArith.abs x = |x| := rfl
@[simp] theorem real_pow (x y : ℝ) : realArith.pow x y = x ^ y := rfl
@[simp] theorem real_half : realArith.half = 1 / 2 := rfl
@[simp] theorem real_eq (x y : ℝ) : realArith.eq x y = true ↔ x = y := by simp [realArith]
@[simp] theorem real_lt (x y : ℝ) : realArith.lt x y = true ↔ x < y := by simp [realArith]
@[simp] theorem real_le (x y : ℝ) : realArith.le x y = true ↔ x ≤ y := by simp [realArith]
@[simp] theorem real_isInteger (x : ℝ) : realArith.isInteger x = true ↔ ∃ n : ℤ, (n : ℝ) = x := by simp [realArith]
theorem real_eq_false (x y : ℝ) : realArith.eq x y = false ↔ x ≠ y := by simp [realArith]
theorem real_isInteger_false (x : ℝ) : realArith.isInteger x = false ↔ ¬ ∃ n : ℤ, (n : ℝ) = x := by simp [realArith]

@[simp] theorem ev_not (n : Option Nat) (l : E ℝ) : ev px (.un n .not l) = if 0 < ev px l then 0 else 1 := by
  show realArith.ofBool (!realArith.toBool (ev px l)) = _
  by_cases h : 0 < ev px l <;> simp [Arith.ofBool, Arith.toBool, realArith, h]

theorem isVal_real (a : ℝ) (k : Int) : isVal realArith a k = true ↔ a = (k : ℝ) := by simp [isVal]

/-- Comparison of real numbers. -/
def cmpProp : Cmp → ℝ → ℝ → Prop
  | .eq, x, y => x = y
  | .lt, x, y => x < y
  | .le, x, y => x ≤ y
  | .neq, x, y => x ≠ y
  | .nlt, x, y => y ≤ x
  | .nle, x, y => y < x

open Classical in
@[simp] theorem ev_cmp (n : Option Nat) (c : Cmp) (l r : E ℝ) :
    ev px (.bin n (.cmp c) l r) = if cmpProp c (ev px l) (ev px r) then 1 else 0 := by
  show realArith.ofBool (realArith.cmp c (ev px l) (ev px r)) = _
  have : realArith.cmp c (ev px l) (ev px r) = true ↔ cmpProp c (ev px l) (ev px r) := by
    cases c <;> simp [Arith.cmp, realArith, cmpProp]
  by_cases h : cmpProp c (ev px l) (ev px r)
  · simp [Arith.ofBool, this.2 h, h]
  · have h' : realArith.cmp c (ev px l) (ev px r) = false := by
      cases hx : realArith.cmp c (ev px l) (ev px r) with
      | false => rfl
      | true => exact absurd (this.1 hx) h
    simp [Arith.ofBool, h', h]

theorem ev_cmp_pos (n : Option Nat) (c : Cmp) (l r : E ℝ) :
    0 < ev px (.bin n (.cmp c) l r) ↔ cmpProp c (ev px l) (ev px r) := by
  rw [ev_cmp]
  split <;> simp_all

/-! ## Powers -/

theorem PowOk.pos {a x : ℝ} (h : 0 < a) : PowOk a x := Or.inl h

theorem PowOk.int {a x : ℝ} (h : PowOk a x) (ha : a < 0) : ∃ n : ℤ, (n : ℝ) = x := by
  rcases h with h | ⟨h, _⟩ | ⟨_, h⟩
  · exact absurd h (not_lt.2 ha.le)
  · exact absurd ha (by rw [h]; exact lt_irrefl 0)
  · exact h

theorem PowOk.zero {x : ℝ} (h : PowOk 0 x) : 0 < x := by
  rcases h with h | ⟨_, h⟩ | ⟨h, _⟩
  · exact absurd h (lt_irrefl 0)
  · exact h
  · exact absurd rfl h

theorem PowOk.ofInt {a : ℝ} (n : ℤ) (ha : a ≠ 0) : PowOk a (n : ℝ) := Or.inr (Or.inr ⟨ha, n, rfl⟩)

theorem zero_pow_pos {x : ℝ} (h : 0 < x) : (0 : ℝ) ^ x = 0 := Real.zero_rpow h.ne'

theorem PowOk.add {a b c : ℝ} (h1 : PowOk a b) (h2 : PowOk a c) : PowOk a (b + c) ∧ a ^ (b + c) = a ^ b * a ^ c := by
  rcases lt_trichotomy a 0 with ha | ha | ha
  · obtain ⟨n, rfl⟩ := h1.int ha
    obtain ⟨m, rfl⟩ := h2.int ha
    refine ⟨by rw [← Int.cast_add]; exact PowOk.ofInt _ ha.ne, ?_⟩
    rw [← Int.cast_add, Real.rpow_intCast, Real.rpow_intCast, Real.rpow_intCast, zpow_add₀ ha.ne]
  · subst ha
    have hb := h1.zero
    have hc := h2.zero
    refine ⟨Or.inr (Or.inl ⟨rfl, by linarith⟩), ?_⟩
    rw [zero_pow_pos hb, zero_pow_pos hc, zero_pow_pos (by linarith)]
    simp
  · exact ⟨PowOk.pos ha, Real.rpow_add ha b c⟩

theorem PowOk.mul {a b c : ℝ} (h1 : PowOk a b) (h2 : PowOk (a ^ b) c) (hc : a < 0 → ∃ n : ℤ, (n : ℝ) = c) :
    PowOk a (b * c) ∧ a ^ (b * c) = (a ^ b) ^ c := by
  rcases lt_trichotomy a 0 with ha | ha | ha
  · obtain ⟨n, rfl⟩ := h1.int ha
    obtain ⟨m, rfl⟩ := hc ha
    refine ⟨by rw [← Int.cast_mul]; exact PowOk.ofInt _ ha.ne, ?_⟩
    rw [← Int.cast_mul, Real.rpow_intCast, Real.rpow_intCast, Real.rpow_intCast, zpow_mul]
  · subst ha
    have hb := h1.zero
    rw [zero_pow_pos hb] at h2
    have hc := h2.zero
    exact ⟨Or.inr (Or.inl ⟨rfl, mul_pos hb hc⟩), by rw [zero_pow_pos hb, zero_pow_pos hc, zero_pow_pos (mul_pos hb hc)]⟩
  · exact ⟨PowOk.pos ha, Real.rpow_mul ha.le b c⟩

theorem PowOk.mul_even {a : ℝ} {n : ℤ} {c : ℝ} (hn : n % 2 = 0) (h1 : PowOk a n) (h2 : PowOk (a ^ (n : ℝ)) c) :
    PowOk |a| (n * c) ∧ |a| ^ ((n : ℝ) * c) = (a ^ (n : ℝ)) ^ c := by
  have he : |a| ^ (n : ℝ) = a ^ (n : ℝ) := by
    rw [Real.rpow_intCast, Real.rpow_intCast]
    exact (Int.even_iff.2 hn).zpow_abs a
  rw [← he] at h2 ⊢
  refine PowOk.mul ?_ h2 (fun h => absurd h (not_lt.2 (abs_nonneg a)))
  rcases eq_or_ne a 0 with ha | ha
  · subst ha; simpa using h1
  · exact PowOk.pos (abs_pos.2 ha)

/-! ## The rules -/

theorem foldConst_sound (nan : ℝ) : ∀ e e', foldConst realArith nan e = some e' → Pres px e e' := by
  intro e e' h
  unfold foldConst at h
  split at h
  · rename_i hc
    cases h
    intro _
    refine ⟨trivial, ?_⟩
    have : ∀ (px' : Mem → Nat → ℝ) (e : E ℝ), isConstantExpr e = true → e.eval realArith px' = e.eval realArith px := by
      intro px' e
      induction e with
      | load => intro h; cases h
      | const => intro _; rfl
      | un n o l ih => intro h; simp only [E.eval]; rw [ih h]
      | bin n o l r ih1 ih2 =>
        intro h
        simp only [isConstantExpr, Bool.and_eq_true] at h
        simp only [E.eval]; rw [ih1 h.1, ih2 h.2]
      | tern n o l a b ih1 ih2 ih3 =>
        intro h
        simp only [isConstantExpr, Bool.and_eq_true] at h
        simp only [E.eval]; rw [ih1 h.1, ih2 h.2.1, ih3 h.2.2]
    simp only [Bool.and_eq_true] at hc
    exact this _ e hc.2
  · cases h

theorem constRight_sound : ∀ e e', constRight e = some e' → Pres px e e' := by
  intro e e' h
  unfold constRight at h
  split at h
  · split at h
    · cases h
      rintro ⟨h1, h2, h3⟩
      exact ⟨⟨h2, h1, trivial⟩, by simp [add_comm]⟩
    · cases h
  · split at h
    · cases h
      rintro ⟨h1, h2, h3⟩
      exact ⟨⟨h2, h1, trivial⟩, by simp [mul_comm]⟩
    · cases h
  · cases h

theorem addZero_sound : ∀ e e', addZero realArith e = some e' → Pres px e e' := by
  intro e e' h
  unfold addZero at h
  split at h
  all_goals first
    | (cases h)
    | (split at h
       · rename_i hc
         rw [isVal_real] at hc
         cases h
         rintro ⟨h1, h2, h3⟩
         exact ⟨by simpa using h1, by simp [hc]⟩
       · cases h)

theorem mulZero_sound : ∀ e e', mulZero realArith e = some e' → Pres px e e' := by
  intro e e' h
  unfold mulZero at h
  split at h
  all_goals first
    | (cases h)
    | (split at h
       · rename_i hc
         rw [isVal_real] at hc
         cases h
         intro _
         exact ⟨trivial, by simp [hc]⟩
       · cases h)

theorem mulOne_sound : ∀ e e', mulOne realArith e = some e' → Pres px e e' := by
  intro e e' h
  unfold mulOne at h
  split at h
  all_goals first
    | (cases h)
    | (split at h
       · rename_i hc
         rw [isVal_real] at hc
         cases h
         rintro ⟨h1, h2, h3⟩
         exact ⟨by simpa using h1, by simp [hc]⟩
       · cases h)

theorem logExp_sound : ∀ e e', logExp e = some e' → Pres px e e' := by
  intro e e' h
  unfold logExp at h
  split at h
  · cases h
    rintro ⟨⟨h1, h2⟩, h3⟩
    exact ⟨by simpa using h1, by simp⟩
  · cases h
    rintro ⟨⟨h1, h2⟩, h3⟩
    refine ⟨by simpa using h1, ?_⟩
    rw [ev_setVn, ev_exp, ev_log, Real.exp_log h2]
  · cases h

theorem powZero_sound : ∀ e e', powZero realArith e = some e' → Pres px e e' := by
  intro e e' h
  unfold powZero at h
  split at h
  · split at h
    · rename_i hc
      rw [isVal_real] at hc
      cases h
      intro _
      exact ⟨trivial, by simp [hc]⟩
    · cases h
  · cases h

theorem powOne_sound : ∀ e e', powOne realArith e = some e' → Pres px e e' := by
  intro e e' h
  unfold powOne at h
  split at h
  · split at h
    · rename_i hc
      rw [isVal_real] at hc
      cases h
      rintro ⟨h1, h2, h3⟩
      exact ⟨by simpa using h1, by simp [hc]⟩
    · cases h
  · cases h

theorem zeroPow_sound : ∀ e e', zeroPow realArith e = some e' → Pres px e e' := by
  intro e e' h
  unfold zeroPow at h
  split at h
  · split at h
    · rename_i hc
      rw [isVal_real] at hc
      cases h
      rintro ⟨h1, h2, h3⟩
      refine ⟨trivial, ?_⟩
      have h3 : PowOk _ _ := h3
      rw [ev_const, hc, Int.cast_zero] at h3
      rw [ev_pow, ev_const, ev_const, hc, Int.cast_zero, zero_pow_pos h3.zero]
      simp
    · cases h
  · cases h

theorem onePow_sound : ∀ e e', onePow realArith e = some e' → Pres px e e' := by
  intro e e' h
  unfold onePow at h
  split at h
  · split at h
    · rename_i hc
      rw [isVal_real] at hc
      cases h
      intro _
      exact ⟨trivial, by simp [hc]⟩
    · cases h
  · cases h

theorem toInt_int {x : ℝ} {n i : ℤ} (hn : (n : ℝ) = x) (h : realArith.toInt x = some i) : i = n := by
  subst hn
  simp only [realArith] at h
  split at h
  · simp only [Int.floor_intCast, Int.ceil_intCast, ite_self, Option.some.injEq] at h
    exact h.symm
  · cases h

theorem powPow_sound : Sound px (powPow realArith) := by
  intro e e' c h
  unfold powPow at h
  split at h
  · rename_i n n' a m b k c'
    obtain ⟨t, h1, h⟩ := bind_eq_ok h
    unfold evenFrac at h1
    rintro ⟨⟨v1, v2, v3⟩, v4, v5⟩
    have v3 : PowOk (ev px a) b := v3
    have v5 : PowOk (ev px a ^ b) c' := v5
    by_cases hb : realArith.isInteger b = true
    · rw [if_pos hb] at h1
      obtain ⟨i, hi⟩ := (real_isInteger b).1 hb
      cases ht : realArith.toInt b with
      | none => rw [ht] at h1; cases h1
      | some j =>
        have hj := toInt_int hi ht
        rw [ht] at h1
        simp only [Res.ok.injEq] at h1
        cases t with
        | true =>
          simp only [if_true] at h
          cases h
          simp only [Bool.and_eq_true, decide_eq_true_eq] at h1
          rw [hj] at h1
          rw [← hi] at v3 v5 ⊢
          obtain ⟨p1, p2⟩ := PowOk.mul_even h1.1 v3 v5
          exact ⟨⟨⟨v1, trivial⟩, trivial, p1⟩, by simpa using p2⟩
        | false =>
          simp only [Bool.false_eq_true, if_false] at h
          cases h
          obtain ⟨p1, p2⟩ := PowOk.mul v3 v5 (by
            intro ha
            rw [Bool.and_eq_false_iff] at h1
            rcases h1 with h1 | h1
            · -- an odd power of a negative number is negative
              have h1 : ¬ j % 2 = 0 := by simpa using h1
              rw [hj] at h1
              refine v5.int ?_
              rw [← hi, Real.rpow_intCast]
              exact (Int.not_even_iff_odd.1 (fun he => h1 (Int.even_iff.1 he))).zpow_neg ha
            · simpa using h1)
          exact ⟨⟨v1, trivial, p1⟩, by simpa using p2⟩
    · rw [if_neg hb] at h1
      cases h1
      simp only [Bool.false_eq_true, if_false] at h
      cases h
      obtain ⟨p1, p2⟩ := PowOk.mul v3 v5 (by
        intro ha
        exact absurd ((real_isInteger b).2 (v3.int ha)) hb)
      exact ⟨⟨v1, trivial, p1⟩, by simpa using p2⟩
  · cases h
    exact Pres.refl _

theorem absAbs_sound : ∀ e e', absAbs e = some e' → Pres px e e' := by
  intro e e' h
  unfold absAbs at h
  split at h
  · cases h
    rintro ⟨⟨h1, h2⟩, h3⟩
    exact ⟨⟨h1, trivial⟩, by simp⟩
  · cases h

theorem ternConst_sound : ∀ e e', ternConst realArith e = some e' → Pres px e e' := by
  intro e e' h
  unfold ternConst at h
  split at h
  · cases h
    rintro ⟨h1, h2, h3⟩
    rename_i n m c a b
    rw [ev_ternary]
    by_cases hc : 0 < c
    · rw [if_pos (by simpa using hc), if_pos (show 0 < ev px (.const m c) from hc)]
      exact ⟨by simpa using h2 hc, by simp⟩
    · rw [if_neg (by simpa using hc), if_neg (show ¬ 0 < ev px (.const m c) from hc)]
      exact ⟨by simpa using h3 hc, by simp⟩
  · cases h

/-- Exchange of the branches. -/
theorem Pres.flip {n n' : Option Nat} {x y a b : E ℝ} (hv : V px x → V px y)
    (h : 0 < ev px y ↔ ¬ 0 < ev px x) : Pres px (.tern n .ternary x a b) (.tern n' .ternary y b a) := by
  rintro ⟨h1, h2, h3⟩
  refine ⟨⟨hv h1, fun hy => h3 (h.1 hy), fun hy => h2 (not_not.1 (fun hn => hy (h.2 hn)))⟩, ?_⟩
  rw [ev_ternary, ev_ternary]
  by_cases hx : 0 < ev px x
  · rw [if_neg (fun hy => h.1 hy hx), if_pos hx]
  · rw [if_pos (h.2 hx), if_neg hx]

theorem ternCmp_sound : ∀ e e', ternCmp e = some e' → Pres px e e' := by
  intro e e' h
  unfold ternCmp at h
  split at h
  · cases h
    exact Pres.flip (fun h => h) (by rw [ev_cmp_pos, ev_cmp_pos]; simp [cmpProp])
  · cases h
    exact Pres.flip (fun h => h) (by rw [ev_cmp_pos, ev_cmp_pos]; simp [cmpProp])
  · cases h

theorem ternNot_sound : ∀ e e', ternNot e = some e' → Pres px e e' := by
  intro e e' h
  unfold ternNot at h
  split at h
  · cases h
    refine Pres.flip (fun h => by simpa using h.1) ?_
    rw [ev_setVn, ev_not]
    split <;> simp_all
  · cases h

theorem cmpProp_not (c : Cmp) (x y : ℝ) : cmpProp c.not x y ↔ ¬ cmpProp c x y := by
  cases c <;> simp [cmpProp, Cmp.not]

theorem notCmp_sound : ∀ e e', notCmp e = some e' → Pres px e e' := by
  intro e e' h
  unfold notCmp at h
  split at h
  · cases h
    rintro ⟨⟨h1, h2, h3⟩, h4⟩
    refine ⟨⟨h1, h2, trivial⟩, ?_⟩
    rename_i n m c x y
    rw [ev_not, ev_cmp]
    have hp := ev_cmp_pos (px := px) m c x y
    have hn := cmpProp_not c (ev px x) (ev px y)
    by_cases hc : cmpProp c (ev px x) (ev px y)
    · rw [if_neg (by rw [hn]; exact not_not.2 hc), if_pos (hp.2 hc)]
    · rw [if_pos (hn.2 hc), if_neg (fun h => hc (hp.1 h))]
  · cases h

/-- `applyLocalOptimizations` is right for real numbers. -/
theorem local_sound (nan : ℝ) : Sound px (applyLocalOptimizations realArith nan) := by
  refine Sound.postorder (fun _ => Sound.list ?_) false
  intro r hr
  simp only [localRules, List.mem_cons, List.not_mem_nil, or_false] at hr
  rcases hr with rfl | rfl | rfl | rfl | rfl | rfl | rfl | rfl | rfl | rfl | rfl | rfl | rfl | rfl | rfl | rfl
  · exact Sound.rule (foldConst_sound nan)
  · exact Sound.rule constRight_sound
  · exact Sound.rule addZero_sound
  · exact Sound.rule mulZero_sound
  · exact Sound.rule mulOne_sound
  · exact Sound.rule logExp_sound
  · exact Sound.rule powZero_sound
  · exact Sound.rule powOne_sound
  · exact Sound.rule zeroPow_sound
  · exact Sound.rule onePow_sound
  · exact powPow_sound
  · exact Sound.rule absAbs_sound
  · exact Sound.rule ternConst_sound
  · exact Sound.rule ternCmp_sound
  · exact Sound.rule ternNot_sound
  · exact Sound.rule notCmp_sound

end VS.Expr
