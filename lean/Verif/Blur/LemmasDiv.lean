import Verif.Blur.Model

/-! # Division by a constant -/

namespace VS.Blur
open VS

theorem floorLog_spec (d : Nat) : ∀ (n l : Nat), 2 ^ l ≤ d → d < 2 ^ (l + n) → 0 < n →
    2 ^ floorLog d n l ≤ d ∧ d < 2 ^ (floorLog d n l + 1) ∧ floorLog d n l < l + n
  | 0, _, _, _, h => absurd h (Nat.lt_irrefl 0)
  | n + 1, l, h1, h2, _ => by
    unfold floorLog
    have hp := Nat.two_pow_pos l
    split
    · rename_i h
      have h3 : 2 ^ (l + 1) ≤ d := by
        have := (Nat.le_div_iff_mul_le hp).1 h
        rw [Nat.pow_succ]; omega
      rcases Nat.eq_zero_or_pos n with rfl | hn
      · rw [Nat.zero_add] at h2; omega
      · have := floorLog_spec d n (l + 1) h3 (by rw [show l + 1 + n = l + (n + 1) by omega]; exact h2) hn
        omega
    · rename_i h
      refine ⟨h1, ?_, by omega⟩
      have := (Nat.div_lt_iff_lt_mul hp).1 (show d / 2 ^ l < 2 by omega)
      rw [Nat.pow_succ]; omega

/-- A multiplication instead of a division: `M` is a little more than `N / d`. -/
theorem mul_div {n d N M e : Nat} (hd : 0 < d) (h : M * d = N + e) (hs : n * e < N) : n * M / N = n / d := by
  have hN : 0 < N := by omega
  have e1 : n * M * d = n * N + n * e := by rw [Nat.mul_assoc, h, Nat.mul_add]
  have hq := Nat.div_add_mod n d
  have hr := Nat.mod_lt n hd
  generalize n / d = q at *
  generalize n % d = r at *
  apply Nat.div_eq_of_lt_le
  · refine Nat.le_of_mul_le_mul_right (c := d) ?_ hd
    rw [e1]
    have : q * N * d ≤ n * N := by
      rw [Nat.mul_right_comm, ← hq, Nat.mul_comm q d]
      exact Nat.mul_le_mul_right _ (by omega)
    omega
  · refine Nat.lt_of_mul_lt_mul_right (a := d) ?_
    rw [e1]
    have : (n + 1) * N ≤ (q + 1) * N * d := by
      rw [Nat.mul_right_comm, ← hq]
      refine Nat.mul_le_mul_right _ ?_
      rw [Nat.add_mul, Nat.mul_comm q d]
      omega
    rw [Nat.add_mul] at this
    omega

/-- Powers of two. -/
theorem and_pred {d l : Nat} (h1 : 2 ^ l ≤ d) (h2 : d < 2 ^ (l + 1)) (h : d &&& (d - 1) = 0) : d = 2 ^ l := by
  refine Decidable.byContradiction fun hne => ?_
  have t1 : d.testBit l = true := by
    rw [Nat.testBit_eq_decide_div_mod_eq, decide_eq_true_eq, Nat.div_eq_of_lt_le (k := 1) (by omega) (by rw [Nat.pow_succ] at h2; omega)]
  have t2 : (d - 1).testBit l = true := by
    rw [Nat.testBit_eq_decide_div_mod_eq, decide_eq_true_eq, Nat.div_eq_of_lt_le (k := 1) (by omega) (by rw [Nat.pow_succ] at h2; omega)]
  have := congrArg (·.testBit l) h
  simp [t1, t2] at this

/-- The division is exact. -/
theorem fastDiv_eq {d n : Nat} (hd : 0 < d) (hd' : d < 2 ^ 32) (hn : n < 2 ^ 32) : fastDiv n (makeFastDiv d) = n / d := by
  obtain ⟨h1, h2, h3⟩ := floorLog_spec d 32 0 (by rw [Nat.pow_zero]; exact hd) (by simpa using hd') (by decide)
  unfold makeFastDiv
  dsimp only
  generalize floorLog d 32 0 = l at *
  split
  · rename_i h
    have := and_pred h1 h2 h
    unfold fastDiv
    rw [if_pos rfl, this]
  · rename_i hnp
    have hlt : 2 ^ l < d := by
      refine Nat.lt_of_le_of_ne h1 fun e => hnp ?_
      rw [← e, Nat.and_two_pow_sub_one_eq_mod]
      simp
    have hN : 2 ^ (32 + l) % 2 ^ 64 = 2 ^ 32 * 2 ^ l := by
      rw [Nat.mod_eq_of_lt (Nat.pow_lt_pow_right (by decide) (by omega)), Nat.pow_add]
    have hps : 2 ^ (l + 1) = 2 * 2 ^ l := by rw [Nat.pow_succ, Nat.mul_comm]
    rw [hN]
    have hp := Nat.two_pow_pos l
    generalize hP : 2 ^ l = P at *
    rw [hps] at h2
    have hdm := Nat.div_add_mod (2 ^ 32 * P) d
    have hrm := Nat.mod_lt (2 ^ 32 * P) hd
    have hm : 2 ^ 32 * P / d < 2 ^ 32 := (Nat.div_lt_iff_lt_mul hd).2 (Nat.mul_lt_mul_of_pos_left hlt (by decide))
    rw [Nat.mod_eq_of_lt hm]
    have hr0 : 2 ^ 32 * P - 2 ^ 32 * P / d * d = 2 ^ 32 * P % d := by rw [Nat.mul_comm _ d]; omega
    rw [hr0, Nat.mod_eq_of_lt (show 2 ^ 32 * P % d < 2 ^ 32 by omega)]
    generalize 2 ^ 32 * P % d = rem at *
    generalize 2 ^ 32 * P / d = m at *
    have hmd : d * m = m * d := Nat.mul_comm _ _
    rw [Nat.mod_eq_of_lt (show d - rem < 2 ^ 32 by omega)]
    split
    · rename_i hs
      -- the small magic number
      have hMd : (m + 1) * d = 2 ^ 32 * P + (d - rem) := by rw [Nat.add_mul]; omega
      have hM : m + 1 < 2 ^ 32 := by
        refine Decidable.byContradiction fun hc => ?_
        have e : m + 1 = 2 ^ 32 := by omega
        rw [e] at hMd
        omega
      rw [Nat.mod_eq_of_lt hM]
      unfold fastDiv
      dsimp only
      rw [if_neg (by omega), if_neg (by decide)]
      have hb : (m + 1) * n < 2 ^ 64 := by
        have : (m + 1) * n < 2 ^ 32 * 2 ^ 32 := Nat.mul_lt_mul'' hM hn
        omega
      rw [Nat.mod_eq_of_lt hb, Nat.mod_eq_of_lt (show (m + 1) * n / 2 ^ 32 < 2 ^ 32 by omega), Nat.div_div_eq_div_mul, Nat.mul_comm (m + 1),
        hP]
      refine mul_div hd hMd ?_
      exact Nat.mul_lt_mul'' hn hs
    · rename_i hs
      have hcond : ((rem + rem) % 2 ^ 32 ≥ d ∨ (rem + rem) % 2 ^ 32 < rem) ↔ d ≤ 2 * rem := by omega
      -- the exact magic number has 33 bits
      obtain ⟨M, e, hM, he, hMm⟩ : ∃ M e, M * d = 2 * (2 ^ 32 * P) + e ∧ (0 < e ∧ e ≤ d) ∧
          ((if (rem + rem) % 2 ^ 32 ≥ d ∨ (rem + rem) % 2 ^ 32 < rem then ((m + m) % 2 ^ 32 + 1) % 2 ^ 32 else (m + m) % 2 ^ 32) + 1) % 2 ^ 32
            = M % 2 ^ 32 := by
        by_cases c : d ≤ 2 * rem
        · refine ⟨2 * m + 1 + 1, 2 * d - 2 * rem, ?_, by omega, ?_⟩
          · rw [Nat.add_mul, Nat.add_mul, Nat.mul_assoc]; omega
          · rw [if_pos (hcond.2 c)]; omega
        · refine ⟨2 * m + 1, d - 2 * rem, ?_, by omega, ?_⟩
          · rw [Nat.add_mul, Nat.mul_assoc]; omega
          · rw [if_neg (fun h => c (hcond.1 h))]; omega
      rw [hMm]
      have hlo : 2 ^ 32 < M := by
        refine Nat.lt_of_mul_lt_mul_right (a := d) ?_
        omega
      have hhi : M < 2 ^ 33 := by
        refine Nat.lt_of_mul_lt_mul_right (a := d) ?_
        omega
      obtain ⟨K, rfl⟩ : ∃ K, M = 2 ^ 32 + K := ⟨M - 2 ^ 32, by omega⟩
      have hK : (2 ^ 32 + K) % 2 ^ 32 = K := by omega
      rw [hK]
      unfold fastDiv
      dsimp only
      rw [if_neg (by omega), if_pos rfl]
      have hb : K * n < 2 ^ 64 := by
        have : K * n < 2 ^ 32 * 2 ^ 32 := Nat.mul_lt_mul'' (by omega) hn
        omega
      rw [Nat.mod_eq_of_lt hb, Nat.mod_eq_of_lt (show K * n / 2 ^ 32 < 2 ^ 32 by omega)]
      have hq : K * n / 2 ^ 32 ≤ n := by
        have : K * n ≤ 2 ^ 32 * n := Nat.mul_le_mul_right _ (by omega)
        omega
      have key : n * (2 ^ 32 + K) / (2 * (2 ^ 32 * P)) = n / d := mul_div hd hM (by
        have : n * e < 2 ^ 32 * (2 * P) := Nat.mul_lt_mul'' hn (by omega)
        omega)
      rw [← key, hP]
      have e1 : ((n + 2 ^ 32 - K * n / 2 ^ 32) % 2 ^ 32 / 2 + K * n / 2 ^ 32) % 2 ^ 32 = (n + K * n / 2 ^ 32) / 2 := by omega
      have e2 : n * (2 ^ 32 + K) / 2 ^ 32 = n + K * n / 2 ^ 32 := by
        rw [Nat.mul_add, Nat.mul_comm n K, Nat.mul_comm n, Nat.mul_add_div (by decide)]
      rw [e1, ← e2, Nat.div_div_eq_div_mul, Nat.div_div_eq_div_mul]
      congr 1
      omega

end VS.Blur
