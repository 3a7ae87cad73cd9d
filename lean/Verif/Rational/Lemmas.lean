import Verif.Rational.Model

/-! Helper lemmas for the rational helpers. -/

namespace VS

theorem gcdLoop_spec (a b : Int) (ha : INT64_MIN < a) (hb : INT64_MIN < b) :
    ∃ g, gcdLoop a b = .ok g ∧ g.natAbs = Int.gcd a b ∧ INT64_MIN < g := by
  induction a, b using gcdLoop.induct with
  | case1 a => exact ⟨a, by simp [gcdLoop], by simp, ha⟩
  | case2 a b h1 h2 => omega
  | case3 a b h1 h2 ih =>
    have hlt : (a.tmod b).natAbs < b.natAbs := by
      rw [Int.natAbs_tmod]; exact Nat.mod_lt _ (by omega)
    have hle : (a.tmod b).natAbs ≤ a.natAbs := by
      rw [Int.natAbs_tmod]; exact Nat.mod_le _ _
    have hm : INT64_MIN < a.tmod b := by
      by_cases h0 : 0 ≤ a
      · have := Int.tmod_nonneg b h0
        simp only [INT64_MIN] at *; omega
      · simp only [INT64_MIN] at *; omega
    obtain ⟨g, e, h, hg⟩ := ih hb hm
    refine ⟨g, ?_, ?_, hg⟩
    · rw [gcdLoop]; simp [h1, h2, e]
    · rw [h, Int.gcd_comm a b, Int.gcd, Int.gcd, Int.natAbs_tmod, Nat.gcd_comm, ← Nat.gcd_rec]

theorem tdiv_gcd_num {n d : Int} (hd : d ≠ 0) :
    n.tdiv (Int.gcd n d : Nat) = d.sign * (Rat.divInt n d).num := by
  have hg : ((Int.gcd n d : Nat) : Int) ≠ 0 := by
    have := Int.gcd_pos_of_ne_zero_right n hd; omega
  obtain ⟨k, hk⟩ := Int.gcd_dvd_left n d
  rw [Rat.num_divInt, Int.gcd_comm d n]
  generalize hG : ((Int.gcd n d : Nat) : Int) = g at *
  rw [hk, Int.mul_tdiv_cancel_left _ hg, Int.mul_left_comm, Int.mul_ediv_cancel_left _ hg, ← Int.mul_assoc]
  rcases Int.lt_trichotomy d 0 with h | h | h
  · simp [Int.sign_eq_neg_one_of_neg h]
  · contradiction
  · simp [Int.sign_eq_one_of_pos h]

theorem tdiv_gcd_den {n d : Int} (hd : d ≠ 0) :
    d.tdiv (Int.gcd n d : Nat) = d.sign * ((Rat.divInt n d).den : Int) := by
  have hg : 0 < Int.gcd n d := Int.gcd_pos_of_ne_zero_right n hd
  rw [Rat.den_divInt, if_neg hd, Int.gcd_comm d n]
  obtain ⟨k, hk⟩ := Int.gcd_dvd_right n d
  generalize Int.gcd n d = g at *
  subst hk
  rw [Int.mul_tdiv_cancel_left _ (by omega), Int.natAbs_mul, Int.natAbs_natCast,
    Nat.mul_div_cancel_left _ hg, Int.sign_mul, Int.sign_natCast_of_ne_zero (by omega), Int.one_mul,
    Int.sign_mul_natAbs]

end VS
