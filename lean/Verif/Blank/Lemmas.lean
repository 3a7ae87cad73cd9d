import Verif.Blank.Spec
import Verif.Pix.LemmasShuffle
import Verif.Pix.LemmasCreate
import Verif.Half.Props
import Mathlib.Tactic.Linarith
import Mathlib.Tactic.NormNum
import Mathlib.Tactic.Positivity

/-! # Facts about BlankClip -/

namespace VS.Blank
open VS VS.Format VS.Map VS.Map.Spec VS.Pix VS.Pix.Spec VS.Gain VS.Half VS.Half.Spec VS.Blank.Spec

theorem toInt_eq (i : Int) : int64ToIntS i = toInt i := by
  unfold int64ToIntS toInt INT_MAX INT_MIN
  split <;> (try split) <;> omega

theorem pick_eq (a b : Option Int) (d : Int) : pick a b d = choice a b d := by
  unfold pick choice
  cases a <;> cases b <;> rfl

/-! ## Colors -/

theorem uint32_ok (F : DFloats) {q : Rat} (h0 : 0 ≤ q) : ∃ i, doubleToUInt32S F q = .ok i ∧ i < 4294967296 ∧
    (q ≤ 4294967295 → |(i : Rat) - q| ≤ 1 / 2 + 1 / 2 ^ 20 ∧ ∀ m : Nat, (m : Rat) ≤ q + 1 / 2 → m ≤ i) := by
  unfold doubleToUInt32S
  rw [if_neg (by linarith)]
  by_cases h1 : q > 4294967295
  · rw [if_pos h1]
    exact ⟨_, rfl, by omega, fun h => absurd h (by linarith)⟩
  · rw [if_neg h1]
    simp only
    push Not at h1
    have hc := F.rnd_close (q + 1 / 2)
    rw [abs_of_nonneg (show (0 : Rat) ≤ q + 1 / 2 by linarith)] at hc
    have hb : (q + 1 / 2) / 2 ^ 53 + 1 / 2 ^ 1075 ≤ (1 : Rat) / 2 ^ 20 := by
      have : (q + 1 / 2) / 2 ^ 53 ≤ (4294967296 : Rat) / 2 ^ 53 := by
        apply div_le_div_of_nonneg_right _ (by positivity)
        linarith
      have t : (1 : Rat) / 2 ^ 1075 ≤ 1 / 2 ^ 21 :=
        one_div_le_one_div_of_le (by positivity) (pow_le_pow_right₀ (by norm_num) (by norm_num))
      have e : (4294967296 : Rat) / 2 ^ 53 + 1 / 2 ^ 21 ≤ 1 / 2 ^ 20 := by norm_num
      linarith
    have hc := abs_le.1 (le_trans hc hb)
    have hlo : (0 : Rat) ≤ F.rnd (q + 1 / 2) := by
      have := F.rnd_mono 0 (q + 1 / 2) (by linarith)
      have z := F.rnd_frac 0 0 (by norm_num) (by norm_num)
      norm_num at z
      rw [z] at this
      exact this
    have hhi : F.rnd (q + 1 / 2) < 4294967296 := by
      have := F.rnd_mono (q + 1 / 2) (4294967295 + 1 / 2) (by linarith)
      have z := F.rnd_frac 8589934591 1 (by norm_num) (by norm_num)
      have e : ((8589934591 : Int) : Rat) / 2 ^ 1 = 4294967295 + 1 / 2 := by norm_num
      rw [e] at z
      rw [z] at this
      linarith
    have f1 := Rat.floor_le (F.rnd (q + 1 / 2))
    have f2 := Rat.lt_floor_add_one (F.rnd (q + 1 / 2))
    have g1 : 0 ≤ (F.rnd (q + 1 / 2)).floor := by rw [Rat.le_floor_iff]; exact_mod_cast hlo
    have g2 : (F.rnd (q + 1 / 2)).floor < 4294967296 := by
      have : (((F.rnd (q + 1 / 2)).floor : Int) : Rat) < ((4294967296 : Int) : Rat) := by push_cast; linarith
      exact_mod_cast this
    rw [if_pos ⟨g1, g2⟩]
    have hle : ∀ m : Nat, (m : Rat) ≤ q + 1 / 2 → (m : Int) ≤ (F.rnd (q + 1 / 2)).floor := by
      intro m hm
      rw [Rat.le_floor_iff]
      have hmm : m ≤ 4294967296 := by
        have : (m : Rat) ≤ ((4294967296 : Nat) : Rat) := by push_cast; linarith
        exact_mod_cast this
      have := F.rnd_mono m (q + 1 / 2) hm
      have z := F.rnd_frac m 0 (by rw [Int.natAbs_natCast]; exact le_trans hmm (by norm_num)) (by norm_num)
      rw [pow_zero, div_one] at z
      push_cast at z ⊢
      rw [z] at this
      exact this
    generalize (F.rnd (q + 1 / 2)).floor = z at *
    obtain ⟨n, rfl⟩ := Int.eq_ofNat_of_zero_le g1
    refine ⟨n, rfl, by omega, fun _ => ⟨?_, fun m hm => by have := hle m hm; omega⟩⟩
    push_cast at f1 f2
    rw [abs_le]
    constructor <;> linarith

theorem pixelInt_ok (F : DFloats) (v : Dbl) (bits : Nat) : ∃ o, doubleToIntPixelValue F v bits = .ok o ∧
    (∀ c, o = some c → ∃ q, v = .fin q ∧ 0 ≤ q ∧ c < 2 ^ bits ∧ (q ≤ 4294967295 → |(c : Rat) - q| ≤ 1 / 2 + 1 / 2 ^ 20)) ∧
    (bits ≤ 32 → ∀ q, v = .fin q → 0 ≤ q → q ≤ 2 ^ bits - 1 → o ≠ none) ∧
    ((∀ q, v ≠ .fin q) → o = none) ∧
    (∀ q, v = .fin q → (q < 0 ∨ bits < 32 ∧ 2 ^ bits - 1 / 2 ≤ q) → o = none) := by
  cases v with
  | inf b => exact ⟨none, rfl, fun c hc => by simp at hc, fun _ q hq => by simp at hq, fun _ => rfl, fun q hq => by simp at hq⟩
  | nan => exact ⟨none, rfl, fun c hc => by simp at hc, fun _ q hq => by simp at hq, fun _ => rfl, fun q hq => by simp at hq⟩
  | fin q =>
    unfold doubleToIntPixelValue
    simp only
    by_cases h0 : q < 0
    · rw [if_pos h0]
      refine ⟨none, rfl, fun c hc => by simp at hc, ?_, fun _ => rfl, fun _ _ _ => rfl⟩
      intro _ q' e hq
      rw [Dbl.fin.injEq] at e
      subst e
      exact absurd h0 (by linarith)
    · rw [if_neg h0]
      push Not at h0
      obtain ⟨i, ei, hi, hq⟩ := uint32_ok F h0
      rw [ei, Res.bind_ok]
      by_cases hb : i ≥ 2 ^ bits
      · rw [if_pos hb]
        refine ⟨none, rfl, fun c hc => by simp at hc, ?_, fun _ => rfl, fun _ _ _ => rfl⟩
        intro h32 q' e _ hle
        rw [Dbl.fin.injEq] at e
        subst e
        exfalso
        have hp : (2 : Rat) ^ bits ≤ 2 ^ 32 := pow_le_pow_right₀ (by norm_num) h32
        have h5 : (2 : Rat) ^ 32 = 4294967296 := by norm_num
        obtain ⟨a1, _⟩ := hq (by linarith)
        have hb' : ((2 : Rat) ^ bits) ≤ (i : Rat) := by exact_mod_cast hb
        have := (abs_le.1 a1).2
        have e20 : (1 : Rat) / 2 ^ 20 < 1 / 2 := by norm_num
        linarith
      · rw [if_neg hb]
        refine ⟨some i, rfl, ?_, fun _ _ _ _ _ => by simp, fun h => absurd rfl (h q), ?_⟩
        · intro c hc
          rw [Option.some.injEq] at hc
          subst hc
          exact ⟨q, rfl, h0, by omega, fun h => (hq h).1⟩
        · intro q' e h
          rw [Dbl.fin.injEq] at e
          subst e
          exfalso
          rcases h with h | ⟨h32, h⟩
          · linarith
          · have hp : 2 ^ bits ≤ 2 ^ 31 := Nat.pow_le_pow_right (by norm_num) (by omega)
            by_cases hbig : q ≤ 4294967295
            · have := (hq hbig).2 (2 ^ bits) (by push_cast; linarith)
              omega
            · have hi2 : i = 4294967295 := by
                unfold doubleToUInt32S at ei
                rw [if_neg (by linarith), if_pos (by linarith), Res.ok.injEq] at ei
                exact ei.symm
              omega

theorem finite32_iff (x : Nat) : isFinite32 x = true ↔ single.Finite x := by
  unfold isFinite32 Fmt.Finite Fmt.exp single
  simp

theorem inf_half_iff (v : Nat) : isInfHalf v = false ↔ half.Finite v := by
  unfold isInfHalf Fmt.Finite Fmt.exp half
  simp only [decide_eq_false_iff_not, ne_eq]
  have e : v &&& 0x7C00 = v / 2 ^ 10 % 2 ^ 5 * 2 ^ 10 := by
    have h : (0x7C00 : Nat) = (2 ^ 5 - 1) <<< 10 := by decide
    apply Nat.eq_of_testBit_eq
    intro i
    rw [h, Nat.testBit_and, Nat.testBit_shiftLeft, Nat.testBit_two_pow_sub_one, Nat.testBit_mul_two_pow, Nat.testBit_mod_two_pow,
      Nat.testBit_div_two_pow]
    by_cases h10 : 10 ≤ i
    · simp only [h10, decide_true, Bool.true_and]
      rw [show i - 10 + 10 = i by omega, Bool.and_comm]
    · simp [h10]
  rw [e]
  omega

/-- All the conversions. -/
theorem pixel_ok (F : DFloats) (C : ToFloat) (hC : ∀ v, single.Bits (C v)) {f : VFmt} (hb : f.bitsPerSample ≤ 32) (v : Dbl) :
    ∃ o, pixelValue F C f v = .ok o ∧ (∀ c, o = some c → SampleFor C f v c) ∧ (HasSample C f v → o ≠ none) ∧
      (NoSample C f v → o = none) := by
  unfold pixelValue SampleFor HasSample NoSample
  by_cases ht : f.sampleType = stInteger
  · simp only [if_pos ht]
    obtain ⟨o, e, h1, h2, h3, h4⟩ := pixelInt_ok F v f.bitsPerSample.toNat
    refine ⟨o, e, h1, ?_, ?_⟩
    · rintro ⟨q, hq, h0, hle⟩
      exact h2 (by omega) q hq h0 hle
    · rintro (h | ⟨q, hq, h⟩)
      · exact h3 h
      · refine h4 q hq ?_
        rcases h with h | ⟨h, h'⟩
        · exact Or.inl h
        · exact Or.inr ⟨by omega, h'⟩
  · simp only [if_neg ht]
    by_cases h16 : f.bitsPerSample = 16
    · simp only [if_pos h16]
      refine ⟨_, rfl, ?_⟩
      unfold doubleToHalfPixelValue
      by_cases hf : single.Finite (C v)
      · rw [if_pos ((finite32_iff _).2 hf)]
        have ov := (C84_overflow (hC v)).1
        by_cases hlt : |single.value (C v)| < 65520
        · obtain ⟨n1, n2, n3, n4⟩ := C84_narrow (hC v) hf hlt
          rw [(inf_half_iff _).2 n3]
          simp only [Bool.false_eq_true, if_false]
          refine ⟨?_, fun _ => by simp, ?_⟩
          · intro c hc
            rw [Option.some.injEq] at hc
            subst hc
            exact ⟨hf, n1, n3, n4⟩
          · rintro (h | h)
            · exact absurd hf h
            · exact absurd h (by linarith)
        · push Not at hlt
          have hi := ov.2 (Or.inr ⟨hf, hlt⟩)
          have : isInfHalf (floatToHalf (C v)) = true := by
            rcases e : isInfHalf (floatToHalf (C v)) with _ | _
            · exact absurd hi.1 ((inf_half_iff _).1 e)
            · rfl
          rw [if_pos this]
          refine ⟨fun c hc => by simp at hc, ?_, fun _ => rfl⟩
          rintro ⟨_, h⟩
          exact absurd h (by linarith)
      · rw [if_neg (by rw [finite32_iff]; exact hf)]
        exact ⟨fun c hc => by simp at hc, fun h => absurd h.1 hf, fun _ => rfl⟩
    · simp only [if_neg h16]
      refine ⟨_, rfl, ?_⟩
      unfold doubleToFloatPixelValue
      by_cases hf : single.Finite (C v)
      · rw [if_pos ((finite32_iff _).2 hf)]
        refine ⟨?_, fun _ => by simp, fun h => absurd hf h⟩
        intro c hc
        rw [Option.some.injEq] at hc
        subst hc
        exact ⟨rfl, hf⟩
      · rw [if_neg (by rw [finite32_iff]; exact hf)]
        exact ⟨fun c hc => by simp at hc, fun h => absurd h hf, fun _ => rfl⟩

theorem colorLoop_ok (F : DFloats) (C : ToFloat) (hC : ∀ v, single.Bits (C v)) {f : VFmt} (hb : f.bitsPerSample ≤ 32) :
    ∀ l : List Dbl, (∃ m, colorLoop F C f l = .err m ∧ ∃ v ∈ l, ¬ HasSample C f v) ∨
      (∃ cs, colorLoop F C f l = .ok cs ∧ cs.length = l.length ∧ (∀ p v, l[p]? = some v → SampleFor C f v (cs.getD p 0)) ∧
        ∀ v ∈ l, ¬ NoSample C f v)
  | [] => Or.inr ⟨[], rfl, rfl, fun p v h => by simp at h, fun v h => by simp at h⟩
  | v :: t => by
    obtain ⟨o, e, h1, h2, h3⟩ := pixel_ok F C hC hb v
    unfold colorLoop
    rw [e, Res.bind_ok]
    cases o with
    | none => exact Or.inl ⟨_, rfl, v, List.mem_cons_self, fun h => h2 h rfl⟩
    | some c =>
      rcases colorLoop_ok F C hC hb t with ⟨m, em, w, hw, hn⟩ | ⟨cs, ec, hl, hs, hg⟩
      · left
        simp only [em, Res.bind_err]
        exact ⟨m, rfl, w, List.mem_cons_of_mem _ hw, hn⟩
      · right
        simp only [ec, Res.bind_ok]
        refine ⟨c :: cs, rfl, by simp [hl], ?_, ?_⟩
        · intro p w hw
          cases p with
          | zero =>
            rw [List.getElem?_cons_zero, Option.some.injEq] at hw
            subst hw
            exact h1 c rfl
          | succ p =>
            rw [List.getElem?_cons_succ] at hw
            exact hs p w hw
        · intro w hw
          rcases List.mem_cons.1 hw with rfl | hw
          · intro hbad
            exact absurd (h3 hbad) (by simp)
          · exact hg w hw

theorem black_eq {f : VFmt} (p : Nat) (hp : p < 3) (hb : 8 ≤ f.bitsPerSample) : setBlack f p = black f p := by
  unfold setBlack black
  have e : (f.bitsPerSample - 1).toNat = f.bitsPerSample.toNat - 1 := by omega
  rw [e]
  have : (p = 1 ∨ p = 2) ↔ p ≠ 0 := by omega
  simp only [this]

end VS.Blank
