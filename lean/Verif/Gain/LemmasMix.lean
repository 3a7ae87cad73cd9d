import Verif.Gain.LemmasLoop

/-!
# The weighted sums of AudioMix
-/

namespace VS.Gain

set_option maxRecDepth 10000

open VS VS.Audio

theorem rnd_bound (F : DFloats) {q : Rat} {m e : Nat} (hm : m ≤ 2 ^ 53) (he : e ≤ 970) (h : |q| ≤ m * 2 ^ e) :
    |F.rnd q| ≤ m * 2 ^ e := by
  obtain ⟨h1, h2⟩ := abs_le.1 h
  have b1 := F.rnd_big m e (by simpa using hm) he
  have b2 := F.rnd_big (-m) e (by simpa using hm) he
  push_cast at b1 b2
  have m1 := F.rnd_mono _ _ h2
  have m2 := F.rnd_mono _ _ h1
  rw [← neg_mul] at m2
  rw [b1] at m1
  rw [b2] at m2
  exact abs_le.2 ⟨by linarith, m1⟩

theorem big_lt {k : Nat} (h : k ≤ 2 ^ 39) : (k : Rat) * 2 ^ 931 < 2 ^ 1024 := by
  have h1 : (k : Rat) ≤ 2 ^ 39 := by exact_mod_cast h
  calc (k : Rat) * 2 ^ 931 ≤ 2 ^ 39 * 2 ^ 931 := mul_le_mul_of_nonneg_right h1 (by positivity)
    _ = 2 ^ 970 := by rw [← pow_add]
    _ < 2 ^ 1024 := pow_lt_1024 (by omega)

theorem tiny : 3 * ((1 : Rat) / 2 ^ 1075) ≤ 1 / 2 ^ 53 := by
  have h : (1 : Rat) / 2 ^ 1075 ≤ 1 / 2 ^ 55 := by
    rw [div_le_div_iff₀ (by positivity) (by positivity), one_mul, one_mul]
    exact pow_le_1024 (by omega)
  have h2 : 3 * ((1 : Rat) / 2 ^ 55) ≤ 1 / 2 ^ 53 := by norm_num
  generalize (1 : Rat) / 2 ^ 1075 = a at *
  linarith

/-- One step of the sum: no overflow, and a small error. -/
theorem mac_ok (F : DFloats) {t x w : Rat} {k : Nat} (hk : k + 1 ≤ 2 ^ 39) (ht : |t| ≤ k * 2 ^ 931) (hx : |x * w| ≤ 2 ^ 931) :
    ∃ t', Dbl.mac F (.fin t) (.fin x) (.fin w) = .fin t' ∧ |t'| ≤ ((k + 1 : Nat) : Rat) * 2 ^ 931 ∧
      |t' - (t + x * w)| ≤ (|t| + 3 * |x * w|) / 2 ^ 53 + 1 / 2 ^ 53 := by
  have hη := tiny
  have hη0 : (0 : Rat) ≤ 1 / 2 ^ 1075 := by positivity
  have sum : ∀ y : Rat, |y| ≤ 2 ^ 931 → |t + y| ≤ ((k + 1 : Nat) : Rat) * 2 ^ 931 := by
    intro y hy
    have := abs_add_le t y
    push_cast
    rw [add_mul, one_mul]
    exact le_trans this (add_le_add ht hy)
  have fits : ∀ z : Rat, |z| ≤ ((k + 1 : Nat) : Rat) * 2 ^ 931 → Dbl.ofRat (F.rnd z) = .fin (F.rnd z) ∧
      |F.rnd z| ≤ ((k + 1 : Nat) : Rat) * 2 ^ 931 := by
    intro z hz
    have h := rnd_bound F (m := k + 1) (e := 931) (by omega) (by omega) hz
    exact ⟨ofRat_small (lt_of_le_of_lt h (big_lt hk)), h⟩
  have two : Dbl.add F (.fin t) (Dbl.mul F (.fin x) (.fin w)) = .fin (F.rnd (t + F.rnd (x * w))) ∧
      |F.rnd (t + F.rnd (x * w))| ≤ ((k + 1 : Nat) : Rat) * 2 ^ 931 ∧
      |F.rnd (t + F.rnd (x * w)) - (t + x * w)| ≤ (|t| + 3 * |x * w|) / 2 ^ 53 + 1 / 2 ^ 53 := by
    have hy : |F.rnd (x * w)| ≤ 2 ^ 931 := by
      have := rnd_bound F (q := x * w) (m := 1) (e := 931) (by omega) (by omega) (by rw [Nat.cast_one, one_mul]; exact hx)
      rwa [Nat.cast_one, one_mul] at this
    have hy' : Dbl.mul F (.fin x) (.fin w) = .fin (F.rnd (x * w)) := by
      show Dbl.ofRat _ = _
      exact ofRat_small (lt_of_le_of_lt hy (pow_lt_1024 (by omega)))
    obtain ⟨f1, f2⟩ := fits _ (sum _ hy)
    refine ⟨by rw [hy']; exact f1, f2, ?_⟩
    have c1 := F.rnd_close (x * w)
    have c2 := F.rnd_close (t + F.rnd (x * w))
    have t1 : |F.rnd (t + F.rnd (x * w)) - (t + x * w)| ≤ |F.rnd (t + F.rnd (x * w)) - (t + F.rnd (x * w))| + |F.rnd (x * w) - x * w| := by
      have := abs_add_le (F.rnd (t + F.rnd (x * w)) - (t + F.rnd (x * w))) (F.rnd (x * w) - x * w)
      refine le_trans (le_of_eq ?_) this
      congr 1; ring
    have t2 := abs_add_le t (F.rnd (x * w))
    have t3 : |F.rnd (x * w)| ≤ |F.rnd (x * w) - x * w| + |x * w| := by
      have := abs_add_le (F.rnd (x * w) - x * w) (x * w)
      simpa using this
    have := abs_nonneg (x * w)
    generalize (1 : Rat) / 2 ^ 1075 = a at *
    linarith
  unfold Dbl.mac
  split
  · obtain ⟨f1, f2⟩ := fits _ (sum _ hx)
    refine ⟨_, f1, f2, ?_⟩
    have c := F.rnd_close (t + x * w)
    have t2 := abs_add_le t (x * w)
    have := abs_nonneg (x * w)
    generalize (1 : Rat) / 2 ^ 1075 = a at *
    linarith
  · exact ⟨_, two⟩

/-- The terms with the values of their weights. -/
def valued (w : Nat → Rat) (terms : List (Int × Nat)) : List (Int × Rat) := terms.map fun p => (p.1, w p.2)

theorem mass_nonneg : ∀ l, 0 ≤ Spec.mass l
  | [] => le_refl _
  | p :: rest => add_nonneg (abs_nonneg _) (mass_nonneg rest)

theorem fold_close (F : DFloats) (w : Nat → Rat) : ∀ (terms : List (Int × Nat)) (t S A : Rat) (k : Nat),
    (∀ p ∈ terms, Dbl.ofBits p.2 = .fin (w p.2) ∧ |p.1 * w p.2| ≤ 2 ^ 931) → k + terms.length ≤ 2 ^ 39 → |t| ≤ k * 2 ^ 931 →
    |t - S| ≤ 3 * k * (A + 1) / 2 ^ 53 → |S| ≤ A →
    ∃ t', terms.foldl (fun t p => Dbl.mac F t (.fin p.1) (Dbl.ofBits p.2)) (.fin t) = .fin t' ∧
      |t' - (S + Spec.dot (valued w terms))| ≤ 3 * (k + terms.length) * (A + Spec.mass (valued w terms) + 1) / 2 ^ 53 ∧
      |t'| < 2 ^ 1024 ∧ |t'| ≤ 2 * (A + Spec.mass (valued w terms)) + 1 := by
  intro terms
  induction terms with
  | nil =>
    intro t S A k _ hk ht hS hA
    simp only [List.length_nil, Nat.add_zero] at hk
    refine ⟨t, rfl, by simpa [valued, Spec.dot, Spec.mass] using hS, lt_of_le_of_lt ht (big_lt hk), ?_⟩
    have hA0 : 0 ≤ A := le_trans (abs_nonneg _) hA
    have hk' : (k : Rat) ≤ 2 ^ 39 := by exact_mod_cast hk
    have h1 : |t| ≤ |t - S| + |S| := by
      have := abs_add_le (t - S) S
      simpa using this
    have h2 : 3 * (k : Rat) * (A + 1) / 2 ^ 53 ≤ 3 * 2 ^ 39 * (A + 1) / 2 ^ 53 := by
      apply div_le_div_of_nonneg_right _ (by positivity)
      apply mul_le_mul_of_nonneg_right _ (by linarith)
      linarith
    have h3 : 3 * (2 : Rat) ^ 39 * (A + 1) / 2 ^ 53 ≤ A + 1 := by
      rw [div_le_iff₀ (by positivity)]
      nlinarith
    simp only [valued, List.map_nil, Spec.mass, add_zero]
    linarith
  | cons p rest ih =>
    intro t S A k hp hk ht hS hA
    simp only [List.length_cons] at hk
    obtain ⟨hb, hx⟩ := hp p (by simp)
    obtain ⟨t1, e1, e2, e3⟩ := mac_ok F (t := t) (x := p.1) (w := w p.2) (k := k) (by omega) ht hx
    have hA0 : 0 ≤ A := le_trans (abs_nonneg _) hA
    have hk' : (k : Rat) ≤ 2 ^ 39 := by
      have : k ≤ 2 ^ 39 := by omega
      exact_mod_cast this
    have hk0 : (0 : Rat) ≤ k := Nat.cast_nonneg k
    have ha : 0 ≤ |p.1 * w p.2| := abs_nonneg _
    obtain ⟨t', f1, f2, f3, f4⟩ := ih t1 (S + p.1 * w p.2) (A + |p.1 * w p.2|) (k + 1) (fun q hq => hp q (by simp [hq])) (by omega) e2 (by
      have h1 : |t| ≤ |t - S| + |S| := by
        have := abs_add_le (t - S) S
        simpa using this
      have h2 : 3 * (k : Rat) * (A + 1) / 2 ^ 53 ≤ 3 * 2 ^ 39 * (A + 1) / 2 ^ 53 := by
        apply div_le_div_of_nonneg_right _ (by positivity)
        apply mul_le_mul_of_nonneg_right _ (by linarith)
        linarith
      have h3 : 3 * (2 : Rat) ^ 39 * (A + 1) / 2 ^ 53 ≤ A + 1 := by
        rw [div_le_iff₀ (by positivity)]
        nlinarith
      have h4 : |t1 - (S + p.1 * w p.2)| ≤ |t1 - (t + p.1 * w p.2)| + |t - S| := by
        have := abs_add_le (t1 - (t + p.1 * w p.2)) (t - S)
        refine le_trans (le_of_eq ?_) this
        congr 1; ring
      have h5 : |t| ≤ 2 * A + 1 := by linarith
      push_cast
      generalize |(p.1 : Rat) * w p.2| = a at *
      have h6 : 3 * (k : Rat) * (A + 1) / 2 ^ 53 ≤ 3 * k * (A + a + 1) / 2 ^ 53 := by
        apply div_le_div_of_nonneg_right _ (by positivity)
        apply mul_le_mul_of_nonneg_left _ (by linarith)
        linarith
      have h7 : (|t| + 3 * a) / 2 ^ 53 + 1 / 2 ^ 53 ≤ 3 * (A + a + 1) / 2 ^ 53 := by
        rw [← add_div]
        apply div_le_div_of_nonneg_right _ (by positivity)
        linarith
      have h8 : 3 * ((k : Rat) + 1) * (A + a + 1) / 2 ^ 53 = 3 * k * (A + a + 1) / 2 ^ 53 + 3 * (A + a + 1) / 2 ^ 53 := by ring
      rw [h8]
      linarith) (by
      have := abs_add_le S (p.1 * w p.2)
      linarith)
    refine ⟨t', ?_, ?_, f3, ?_⟩
    · rw [List.foldl_cons, hb]
      rw [e1]
      exact f1
    · simp only [valued, List.map_cons, Spec.dot, Spec.mass, List.length_cons] at *
      push_cast at *
      rw [add_assoc] at f2
      refine le_trans (le_of_eq ?_) (le_trans f2 (le_of_eq ?_))
      · rfl
      · ring
    · simp only [valued, List.map_cons, Spec.mass] at *
      linarith

/-- The sum of the products of integers. -/
def idot : List (Int × Int) → Int
  | [] => 0
  | p :: rest => p.1 * p.2 + idot rest

theorem dot_idot (e : Nat) : ∀ ts : List (Int × Int), Spec.dot (ts.map (fun p => (p.1, (p.2 / 2 ^ e : Rat)))) = idot ts / 2 ^ e
  | [] => by simp [Spec.dot, idot]
  | p :: rest => by
    simp only [List.map_cons, Spec.dot, idot, dot_idot e rest]
    push_cast
    ring

theorem idot_le : ∀ ts : List (Int × Int), (idot ts).natAbs ≤ Spec.imass ts
  | [] => by simp [idot, Spec.imass]
  | p :: rest => by
    have := idot_le rest
    simp only [idot, Spec.imass]
    omega

theorem frac_small {m : Int} {e : Nat} (hm : m.natAbs ≤ 2 ^ 53) : |(m / 2 ^ e : Rat)| < 2 ^ 1024 := by
  rw [abs_div, abs_of_pos (by positivity : (0 : Rat) < 2 ^ e)]
  refine lt_of_le_of_lt (div_le_self (abs_nonneg _) (one_le_pow₀ (by norm_num))) ?_
  exact lt_of_le_of_lt (abs_intCast_le hm) pow53

theorem fold_exact (F : DFloats) (w : Nat → Rat) (e : Nat) (he : e ≤ 1058) : ∀ (terms : List (Int × Nat)) (ts : List (Int × Int)) (M : Int),
    valued w terms = ts.map (fun p => (p.1, (p.2 / 2 ^ e : Rat))) → (∀ p ∈ terms, Dbl.ofBits p.2 = .fin (w p.2)) →
    M.natAbs + Spec.imass ts ≤ 2 ^ 53 →
    terms.foldl (fun t p => Dbl.mac F t (.fin p.1) (Dbl.ofBits p.2)) (.fin (M / 2 ^ e)) = .fin (((M + idot ts : Int) : Rat) / 2 ^ e) := by
  intro terms
  induction terms with
  | nil =>
    intro ts M hv _ _
    cases ts with
    | nil => simp [idot]
    | cons => simp [valued] at hv
  | cons p rest ih =>
    intro ts M hv hb hM
    cases ts with
    | nil => simp [valued] at hv
    | cons q ts =>
      simp only [valued, List.map_cons, List.cons.injEq, Prod.mk.injEq] at hv
      obtain ⟨⟨hv1, hv2⟩, hv3⟩ := hv
      simp only [Spec.imass] at hM
      have e1 : ((p.1 : Rat)) * w p.2 = ((q.1 * q.2 : Int) : Rat) / 2 ^ e := by rw [hv1, hv2]; push_cast; ring
      have e2 : (M : Rat) / 2 ^ e + ((q.1 * q.2 : Int) : Rat) / 2 ^ e = ((M + q.1 * q.2 : Int) : Rat) / 2 ^ e := by push_cast; ring
      have n1 : (q.1 * q.2).natAbs ≤ 2 ^ 53 := by omega
      have n2 : (M + q.1 * q.2).natAbs ≤ 2 ^ 53 := by omega
      have step : Dbl.mac F (.fin (M / 2 ^ e)) (.fin p.1) (Dbl.ofBits p.2) = .fin (((M + q.1 * q.2 : Int) : Rat) / 2 ^ e) := by
        rw [hb p (by simp)]
        unfold Dbl.mac
        split
        · show Dbl.ofRat (F.rnd _) = _
          rw [e1, e2, F.rnd_frac _ e n2 (by omega)]
          exact ofRat_small (frac_small n2)
        · have hm : Dbl.mul F (.fin p.1) (.fin (w p.2)) = .fin (((q.1 * q.2 : Int) : Rat) / 2 ^ e) := by
            show Dbl.ofRat (F.rnd _) = _
            rw [e1, F.rnd_frac _ e n1 (by omega)]
            exact ofRat_small (frac_small n1)
          rw [hm]
          show Dbl.ofRat (F.rnd _) = _
          rw [e2, F.rnd_frac _ e n2 (by omega)]
          exact ofRat_small (frac_small n2)
      rw [List.foldl_cons, step, ih ts (M + q.1 * q.2) hv3 (fun r hr => hb r (by simp [hr])) (by omega)]
      rw [idot, Int.add_assoc]

/-- A mixed sample. -/
theorem mixed_exists (F : DFloats) {fmt : AudioFormat} (hf : IntFormat fmt) (w : Nat → Rat) (terms : List (Int × Nat))
    (hb : ∀ p ∈ terms, Dbl.ofBits p.2 = .fin (w p.2) ∧ |p.1 * w p.2| ≤ 2 ^ 931) (hlen : terms.length ≤ 2 ^ 39) :
    ∃ out clip, (quantizeIntSample F (mixSum F terms) (intSampleRange fmt)).2 = clip ∧
      (quantizeIntSample F (mixSum F terms) (intSampleRange fmt)).1.toInt fmt.bytesPerSample = .ok out ∧
      Spec.Mixed fmt (valued w terms) out clip := by
  obtain ⟨t, t1, t2, t3, t4⟩ := fold_close F w terms 0 0 0 0 hb (by omega) (by simp) (by simp) (by simp)
  have hs : mixSum F terms = Dbl.ofRat t := by
    rw [ofRat_small t3]; exact t1
  obtain ⟨out, clip, h1, h2, ⟨v, hv, h3⟩, h4⟩ := quantize_rat F hf t
  rw [hs]
  refine ⟨out, clip, h1, h2, ⟨v, ?_, h3⟩, ?_⟩
  · have e2 : (1 : Rat) / 2 ^ 1050 ≤ 1 / 2 ^ 53 := by
      rw [div_le_div_iff₀ (by positivity) (by positivity), one_mul, one_mul]
      exact pow_le_1024 (by omega)
    have t5 : |v - Spec.dot (valued w terms)| ≤ |v - t| + |t - Spec.dot (valued w terms)| := abs_sub_le _ _ _
    have hm := mass_nonneg (valued w terms)
    have hlen' : (valued w terms).length = terms.length := by simp [valued]
    rw [hlen']
    simp only [Nat.cast_zero, zero_add] at t2 t4
    generalize (1 : Rat) / 2 ^ 1050 = b at *
    generalize Spec.mass (valued w terms) = A at *
    generalize Spec.dot (valued w terms) = S at *
    have hn : (0 : Rat) ≤ terms.length := Nat.cast_nonneg _
    generalize (terms.length : Rat) = n at *
    have t6 : |t| / 2 ^ 53 + 1 / 2 ^ 53 ≤ 3 * (A + 1) / 2 ^ 53 := by
      rw [← add_div]
      apply div_le_div_of_nonneg_right _ (by positivity)
      linarith
    have t7 : 3 * n * (A + 1) / 2 ^ 53 + 3 * (A + 1) / 2 ^ 53 ≤ (n + 1) * (A + 1) / 2 ^ 50 := by
      have : (n + 1) * (A + 1) / 2 ^ 50 = 8 * ((n + 1) * (A + 1)) / 2 ^ 53 := by ring
      rw [this, ← add_div]
      apply div_le_div_of_nonneg_right _ (by positivity)
      nlinarith [mul_nonneg hn hm]
    linarith
  · intro ts e he hm hE
    have hx := fold_exact F w e hE terms ts 0 he (fun p hp => (hb p hp).1) (by simpa using hm)
    simp only [Int.cast_zero, zero_div, Int.zero_add] at hx
    have ht : t = (idot ts : Rat) / 2 ^ e := by
      have : Dbl.fin t = Dbl.fin ((idot ts : Rat) / 2 ^ e) := by rw [← hx, ← t1]
      exact Dbl.fin.inj this
    have hd : Spec.dot (valued w terms) = t := by rw [he, dot_idot, ht]
    rw [hd]
    exact h4 (idot ts) e ht (le_trans (idot_le ts) hm) hE

end VS.Gain
