import Verif.Merge.Spec

/-! # The kernels compute the exact values -/

namespace VS.Merge
open VS VS.Merge.Spec

theorem mergePx_ok {n w v1 v2 : Nat} (hn : n = 1 ∨ n = 2) (hw : w ≤ 32768) (h1 : v1 < 256 ^ n) (h2 : v2 < 256 ^ n) :
    ((mergePx w v1 v2 % 256 ^ n : Nat) : Int) = mean w v1 v2 := by
  unfold mean nearest mergePx sub32
  by_cases h : v1 ≤ v2
  · obtain ⟨d, rfl⟩ : ∃ d, v2 = v1 + d := ⟨v2 - v1, by omega⟩
    have e : (32768 - (w : Int)) * v1 + w * ((v1 + d : Nat) : Int) = 32768 * v1 + (d * w : Nat) := by
      push_cast; grind
    rw [e]
    have hP : d * w ≤ d * 32768 := Nat.mul_le_mul_left _ hw
    have es : (v1 + d + 2 ^ 32 - v1 % 2 ^ 32) % 2 ^ 32 = d := by
      rcases hn with rfl | rfl <;> omega
    rw [es]
    generalize d * w = P at *
    rcases hn with rfl | rfl <;> omega
  · obtain ⟨d, rfl⟩ : ∃ d, v1 = v2 + d := ⟨v1 - v2, by omega⟩
    have e : (32768 - (w : Int)) * ((v2 + d : Nat) : Int) + w * v2 = 32768 * (v2 + d : Nat) - (d * w : Nat) := by
      push_cast; grind
    rw [e]
    have hP : d * w ≤ d * 32768 := Nat.mul_le_mul_left _ hw
    have es : (v2 + 2 ^ 32 - (v2 + d) % 2 ^ 32) % 2 ^ 32 = 2 ^ 32 - d := by
      rcases hn with rfl | rfl <;> omega
    rw [es]
    have hQ : (2 ^ 32 - d) * w + d * w = 4294967296 * w := by
      rw [← Nat.add_mul]; congr 1; rcases hn with rfl | rfl <;> omega
    generalize (2 ^ 32 - d) * w = Q at *
    generalize d * w = P at *
    rcases hn with rfl | rfl <;> omega

theorem mul_le_max {a b m : Nat} (h : b ≤ m) : a * b ≤ a * m := Nat.mul_le_mul_left _ h

theorem maskByte_ok {m v1 v2 : Nat} (h : m < 256) (h1 : v1 < 256) (h2 : v2 < 256) :
    (maskByte m v1 v2 : Int) = masked 255 m v1 v2 := by
  unfold maskByte masked nearest
  have a := mul_le_max (a := 255 - m) (show v1 ≤ 255 by omega)
  have b := mul_le_max (a := m) (show v2 ≤ 255 by omega)
  have e : (255 - (m : Int)) * v1 + m * v2 = ((255 - m) * v1 : Nat) + (m * v2 : Nat) := by
    rw [Int.natCast_mul, Int.natCast_mul, Int.ofNat_sub (by omega)]; rfl
  rw [e]
  generalize (255 - m) * v1 = A at *
  generalize m * v2 = B at *
  omega

/-- The depths with tables. -/
theorem depth_cases {d : Nat} (h : 9 ≤ d) (h' : d ≤ 16) :
    d = 9 ∨ d = 10 ∨ d = 11 ∨ d = 12 ∨ d = 13 ∨ d = 14 ∨ d = 15 ∨ d = 16 := by omega

/-- Multiplication and shift instead of a division. -/
theorem magic {d t : Nat} (h : 9 ≤ d) (h' : d ≤ 16) (ht : t ≤ (2 ^ d - 1) * (2 ^ d - 1) + (2 ^ d - 1) / 2) :
    t * divTable.getD (d - 9) 0 < 2 ^ 64 ∧ t * divTable.getD (d - 9) 0 / 2 ^ (32 + shiftTable.getD (d - 9) 0) = t / (2 ^ d - 1) := by
  rcases depth_cases h h' with rfl | rfl | rfl | rfl | rfl | rfl | rfl | rfl <;>
    (simp only [divTable, shiftTable, List.getD_cons_zero, List.getD_cons_succ, Nat.reduceSub, Nat.reducePow, Nat.reduceAdd,
      Nat.reduceMul, Nat.reduceDiv] at ht ⊢; omega)

theorem pow_depth {d : Nat} (h : 9 ≤ d) (h' : d ≤ 16) : 512 ≤ 2 ^ d ∧ 2 ^ d ≤ 65536 ∧ (2 ^ d) % 2 = 0 := by
  rcases depth_cases h h' with rfl | rfl | rfl | rfl | rfl | rfl | rfl | rfl <;> decide

theorem sq_le {M : Nat} (h : M ≤ 65535) : M * M + M / 2 < 2 ^ 32 := by
  have := Nat.mul_le_mul h h
  omega

/-- Half of an odd number added before a division rounds to the nearest number. -/
theorem nearest_odd {t M : Nat} (h : M % 2 = 1) : ((t + M / 2) / M : Nat) = nearest t M := by
  obtain ⟨k, rfl⟩ : ∃ k, M = 2 * k + 1 := ⟨M / 2, by omega⟩
  unfold nearest
  have e : (2 * (t : Int) + ((2 * k + 1 : Nat) : Int)) = ((2 * t + (2 * k + 1) : Nat) : Int) := by push_cast; rfl
  have e2 : (2 * ((2 * k + 1 : Nat) : Int)) = ((2 * (2 * k + 1) : Nat) : Int) := by push_cast; rfl
  rw [e, e2, ← Int.natCast_ediv]
  congr 1
  rw [← Nat.div_div_eq_div_mul]
  congr 1
  omega

theorem nearest_neg {t M : Nat} (h : M % 2 = 1) : -((t + M / 2) / M : Nat) = nearest (-t) M := by
  obtain ⟨k, rfl⟩ : ∃ k, M = 2 * k + 1 := ⟨M / 2, by omega⟩
  unfold nearest
  have hd := Nat.div_add_mod (t + (2 * k + 1) / 2) (2 * k + 1)
  have hm := Nat.mod_lt (t + (2 * k + 1) / 2) (show 0 < 2 * k + 1 by omega)
  generalize (t + (2 * k + 1) / 2) / (2 * k + 1) = q at *
  generalize (t + (2 * k + 1) / 2) % (2 * k + 1) = r at *
  have e : 2 * (-(t : Int)) + ((2 * k + 1 : Nat) : Int) = (2 * k + (2 * k + 1) - 2 * r) + 2 * ((2 * k + 1 : Nat) : Int) * (-(q : Int)) := by
    have : ((2 * k + 1 : Nat) : Int) * q + r = t + k := by
      have := congrArg (Nat.cast (R := Int)) hd
      push_cast at this ⊢
      rw [this]; omega
    grind
  rw [e, Int.add_mul_ediv_left _ _ (by omega), Int.ediv_eq_zero_of_lt (by omega) (by omega)]
  omega

theorem maskWord_ok {d m v1 v2 : Nat} (h : 9 ≤ d) (h' : d ≤ 16) (hm : m < 2 ^ d) (h1 : v1 < 2 ^ d) (h2 : v2 < 2 ^ d) :
    (maskWord d m v1 v2 : Int) = masked (2 ^ d - 1) m v1 v2 := by
  obtain ⟨p1, p2, p3⟩ := pow_depth h h'
  have hpow : ((2 : Int) ^ d - 1) = ((2 ^ d - 1 : Nat) : Int) := by
    rw [Int.ofNat_sub (by omega)]; push_cast; rfl
  unfold masked maskWord
  rw [hpow]
  dsimp only
  have em : (2 ^ d - 1) % 2 ^ 16 = 2 ^ d - 1 := Nat.mod_eq_of_lt (by omega)
  have es : sub16 (2 ^ d - 1) m = 2 ^ d - 1 - m := by unfold sub16; omega
  have hs := sq_le (M := 2 ^ d - 1) (by omega)
  have a := mul_le_max (a := 2 ^ d - 1 - m) (show v1 ≤ 2 ^ d - 1 by omega)
  have b := mul_le_max (a := m) (show v2 ≤ 2 ^ d - 1 by omega)
  have ab : (2 ^ d - 1 - m) * (2 ^ d - 1) + m * (2 ^ d - 1) = (2 ^ d - 1) * (2 ^ d - 1) := by
    rw [← Nat.add_mul]; congr 1; omega
  rw [em, es]
  have e : (((2 ^ d - 1 : Nat) : Int) - m) * v1 + m * v2 = (((2 ^ d - 1 - m) * v1 + m * v2 : Nat) : Int) := by
    rw [Int.natCast_add, Int.natCast_mul, Int.natCast_mul, Int.ofNat_sub (by omega : m ≤ 2 ^ d - 1)]
  rw [e, ← nearest_odd (by omega)]
  have em1 : ((2 ^ d - 1 - m) * v1 % 2 ^ 32 + m * v2 % 2 ^ 32 + (2 ^ d - 1) / 2) % 2 ^ 32 =
      (2 ^ d - 1 - m) * v1 + m * v2 + (2 ^ d - 1) / 2 := by
    rw [Nat.mod_eq_of_lt (a := (2 ^ d - 1 - m) * v1) (by omega), Nat.mod_eq_of_lt (a := m * v2) (by omega),
      Nat.mod_eq_of_lt (by omega)]
  obtain ⟨g1, g2⟩ := magic (t := (2 ^ d - 1 - m) * v1 + m * v2 + (2 ^ d - 1) / 2) h h' (by omega)
  rw [em1, Nat.mod_eq_of_lt g1, g2]

theorem div_le_of {t d M : Nat} (hM : 0 < M) (h : t ≤ d * M) : (t + M / 2) / M ≤ d := by
  rw [Nat.div_le_iff_le_mul_add_pred hM]
  have : M * d = d * M := Nat.mul_comm _ _
  omega

/-- The distance from the offset, scaled, as a signed number of 16 bits. -/
theorem premulU8_ok {o x a : Nat} (ho : o < 256) (hx : x < 256) (ha : a < 256) :
    toI16 (premulU8 o x a) = scaled 255 o a x ∧ premulU8 o x a < 2 ^ 16 ∧
      (o ≤ x → 0 ≤ scaled 255 o a x ∧ scaled 255 o a x ≤ x - o) ∧
      (x ≤ o → scaled 255 o a x ≤ 0 ∧ (x : Int) - o ≤ scaled 255 o a x) := by
  unfold scaled
  by_cases h : o ≤ x
  · obtain ⟨d, rfl⟩ : ∃ d, x = o + d := ⟨x - o, by omega⟩
    have e : (((o + d : Nat) : Int) - o) * a = ((d * a : Nat) : Int) := by
      rw [Int.natCast_mul]; congr 1; omega
    have es : sub16 (o + d) o = d := by unfold sub16; omega
    have hP := mul_le_max (a := d) (show a ≤ 255 by omega)
    rw [e]
    have hq := nearest_odd (t := d * a) (M := 255) (by decide)
    have hle := div_le_of (t := d * a) (d := d) (M := 255) (by decide) hP
    have hu : premulU8 o (o + d) a = (d * a + 127) / 255 := by
      unfold premulU8
      simp only [es]
      rw [decide_eq_false (show ¬ d ≥ 2 ^ 15 by omega)]
      simp only [Bool.false_eq_true, if_false]
      generalize d * a = P at *
      omega
    rw [hu]
    change (((d * a + 127) / 255 : Nat) : Int) = _ at hq
    rw [show ((255 : Nat) : Int) = 255 from rfl] at hq
    rw [← hq]
    unfold toI16
    generalize d * a = P at *
    refine ⟨?_, by omega, fun _ => by omega, fun _ => by omega⟩
    rw [if_pos (by omega)]
  · obtain ⟨d, rfl⟩ : ∃ d, o = x + d := ⟨o - x, by omega⟩
    have e : ((x : Int) - (x + d : Nat)) * a = -((d * a : Nat) : Int) := by
      rw [Int.natCast_mul, show (x : Int) - (x + d : Nat) = -d by omega, Int.neg_mul]
    have es : sub16 x (x + d) = 2 ^ 16 - d := by unfold sub16; omega
    have es2 : sub16 0 (2 ^ 16 - d) = d := by unfold sub16; omega
    have hP := mul_le_max (a := d) (show a ≤ 255 by omega)
    rw [e]
    have hq := nearest_neg (t := d * a) (M := 255) (by decide)
    have hle := div_le_of (t := d * a) (d := d) (M := 255) (by decide) hP
    have hu : premulU8 (x + d) x a = sub16 0 ((d * a + 127) / 255) := by
      unfold premulU8
      simp only [es]
      rw [decide_eq_true (show 2 ^ 16 - d ≥ 2 ^ 15 by omega)]
      simp only [if_true, es2]
      rw [Nat.mod_eq_of_lt (by omega)]
    rw [hu]
    change -(((d * a + 127) / 255 : Nat) : Int) = _ at hq
    rw [show ((255 : Nat) : Int) = 255 from rfl] at hq
    rw [← hq]
    generalize d * a = P at *
    unfold toI16 sub16
    refine ⟨?_, by omega, fun _ => by omega, fun _ => by omega⟩
    split <;> omega

theorem premulU16_ok {d o x a : Nat} (h : 9 ≤ d) (h' : d ≤ 16) (ho : o < 2 ^ d) (hx : x < 2 ^ d) (ha : a < 2 ^ d) :
    toI32 (premulU16 d o x a) = scaled (2 ^ d - 1) o a x ∧ premulU16 d o x a < 2 ^ 32 ∧
      (o ≤ x → 0 ≤ scaled (2 ^ d - 1) o a x ∧ scaled (2 ^ d - 1) o a x ≤ x - o) ∧
      (x ≤ o → scaled (2 ^ d - 1) o a x ≤ 0 ∧ (x : Int) - o ≤ scaled (2 ^ d - 1) o a x) := by
  obtain ⟨p1, p2, p3⟩ := pow_depth h h'
  have hpow : ((2 : Int) ^ d - 1) = ((2 ^ d - 1 : Nat) : Int) := by
    rw [Int.ofNat_sub (by omega)]; push_cast; rfl
  unfold scaled
  rw [hpow]
  have hs := sq_le (M := 2 ^ d - 1) (by omega)
  by_cases hh : o ≤ x
  · obtain ⟨e, rfl⟩ : ∃ e, x = o + e := ⟨x - o, by omega⟩
    have he : (((o + e : Nat) : Int) - o) * a = ((e * a : Nat) : Int) := by
      rw [Int.natCast_mul]; congr 1; omega
    have es : sub32 (o + e) o = e := by unfold sub32; omega
    have hP := mul_le_max (a := e) (show a ≤ 2 ^ d - 1 by omega)
    have hP2 := Nat.mul_le_mul_right (2 ^ d - 1) (show e ≤ 2 ^ d - 1 by omega)
    rw [he]
    have hq := nearest_odd (t := e * a) (M := 2 ^ d - 1) (by omega)
    have hle := div_le_of (t := e * a) (d := e) (M := 2 ^ d - 1) (by omega) hP
    obtain ⟨g1, g2⟩ := magic (t := e * a + (2 ^ d - 1) / 2) h h' (by omega)
    have hu : premulU16 d o (o + e) a = (e * a + (2 ^ d - 1) / 2) / (2 ^ d - 1) := by
      unfold premulU16
      simp only [es]
      rw [decide_eq_false (show ¬ e ≥ 2 ^ 31 by omega)]
      simp only [Bool.false_eq_true, if_false]
      rw [Nat.mod_eq_of_lt g1, g2, Nat.mod_eq_of_lt (by omega)]
    rw [hu, ← hq]
    generalize (e * a + (2 ^ d - 1) / 2) / (2 ^ d - 1) = Q at *
    unfold toI32
    refine ⟨?_, by omega, fun _ => by omega, fun _ => by omega⟩
    rw [if_pos (by omega)]
  · obtain ⟨e, rfl⟩ : ∃ e, o = x + e := ⟨o - x, by omega⟩
    have he : ((x : Int) - (x + e : Nat)) * a = -((e * a : Nat) : Int) := by
      rw [Int.natCast_mul, show (x : Int) - (x + e : Nat) = -e by omega, Int.neg_mul]
    have es : sub32 x (x + e) = 2 ^ 32 - e := by unfold sub32; omega
    have es2 : sub32 0 (2 ^ 32 - e) = e := by unfold sub32; omega
    have hP := mul_le_max (a := e) (show a ≤ 2 ^ d - 1 by omega)
    have hP2 := Nat.mul_le_mul_right (2 ^ d - 1) (show e ≤ 2 ^ d - 1 by omega)
    rw [he]
    have hq := nearest_neg (t := e * a) (M := 2 ^ d - 1) (by omega)
    have hle := div_le_of (t := e * a) (d := e) (M := 2 ^ d - 1) (by omega) hP
    obtain ⟨g1, g2⟩ := magic (t := e * a + (2 ^ d - 1) / 2) h h' (by omega)
    have hu : premulU16 d (x + e) x a = sub32 0 ((e * a + (2 ^ d - 1) / 2) / (2 ^ d - 1)) := by
      unfold premulU16
      simp only [es]
      rw [decide_eq_true (show 2 ^ 32 - e ≥ 2 ^ 31 by omega)]
      simp only [if_true, es2]
      rw [Nat.mod_eq_of_lt g1, g2, Nat.mod_eq_of_lt (by omega)]
    rw [hu, ← hq]
    generalize (e * a + (2 ^ d - 1) / 2) / (2 ^ d - 1) = Q at *
    unfold toI32 sub32
    refine ⟨?_, by omega, fun _ => by omega, fun _ => by omega⟩
    split <;> omega

theorem premulByte_ok {o x a : Nat} (ho : o < 256) (hx : x < 256) (ha : a < 256) :
    ((premulByte o x a % 256 : Nat) : Int) = o + scaled 255 o a x := by
  obtain ⟨e, hl, h1, h2⟩ := premulU8_ok ho hx ha
  generalize scaled 255 o a x = S at *
  subst e
  unfold premulByte
  unfold toI16 at *
  split at h1 <;> split <;> omega

theorem premulWord_ok {d o x a : Nat} (h : 9 ≤ d) (h' : d ≤ 16) (ho : o < 2 ^ d) (hx : x < 2 ^ d) (ha : a < 2 ^ d) :
    ((premulWord d o x a % 65536 : Nat) : Int) = o + scaled (2 ^ d - 1) o a x := by
  obtain ⟨p1, p2, p3⟩ := pow_depth h h'
  obtain ⟨e, hl, h1, h2⟩ := premulU16_ok h h' ho hx ha
  generalize scaled (2 ^ d - 1) o a x = S at *
  subst e
  unfold premulWord
  unfold toI32 at *
  split at h1 <;> split <;> omega

theorem clamp_eq {x mx : Int} (h : 0 ≤ mx) : (clamp x mx : Int) = limited x mx := by
  unfold clamp limited
  split
  · omega
  · split <;> omega

theorem maskPreByte_ok {o m v1 v2 : Nat} (ho : o < 256) (hm : m < 256) (h1 : v1 < 256) (h2 : v2 < 256) :
    (maskPreByte o m v1 v2 : Int) = limited (scaled 255 o (255 - m) v1 + v2) 255 := by
  obtain ⟨e, hl, g1, g2⟩ := premulU8_ok (a := 255 - m) ho h1 (by omega)
  rw [Int.ofNat_sub (show m ≤ 255 by omega)] at e g1 g2
  unfold maskPreByte
  rw [clamp_eq (by decide)]
  congr 1
  rw [e]
  change _ = scaled 255 o ((255 : Int) - m) v1 + v2
  change toI16 (store 16 (scaled 255 o ((255 : Int) - m) v1 + v2)) = _
  change (o ≤ v1 → 0 ≤ scaled 255 o ((255 : Int) - m) v1 ∧ scaled 255 o ((255 : Int) - m) v1 ≤ v1 - o) at g1
  change (v1 ≤ o → scaled 255 o ((255 : Int) - m) v1 ≤ 0 ∧ (v1 : Int) - o ≤ scaled 255 o ((255 : Int) - m) v1) at g2
  generalize scaled 255 o ((255 : Int) - m) v1 = S at *
  unfold store toI16
  split <;> omega

theorem maskPreWord_ok {d o m v1 v2 : Nat} (h : 9 ≤ d) (h' : d ≤ 16) (ho : o < 2 ^ d) (hm : m < 2 ^ d) (h1 : v1 < 2 ^ d) :
    (maskPreWord d o m v1 v2 : Int) = limited (scaled (2 ^ d - 1) o (2 ^ d - 1 - m) v1 + v2) (2 ^ d - 1) := by
  obtain ⟨p1, p2, p3⟩ := pow_depth h h'
  have hpow : ((2 : Int) ^ d - 1) = ((2 ^ d - 1 : Nat) : Int) := by
    rw [Int.ofNat_sub (by omega)]; push_cast; rfl
  obtain ⟨e, hl, g1, g2⟩ := premulU16_ok (a := 2 ^ d - 1 - m) h h' ho h1 (by omega)
  unfold maskPreWord
  dsimp only
  have em : (2 ^ d - 1) % 2 ^ 16 = 2 ^ d - 1 := Nat.mod_eq_of_lt (by omega)
  have es : sub16 (2 ^ d - 1) m = 2 ^ d - 1 - m := by unfold sub16; omega
  rw [em, es, clamp_eq (by omega), e, hpow, Int.ofNat_sub (show m ≤ 2 ^ d - 1 by omega)]

end VS.Merge
