import Verif.Format.Spec

/-! # Lemmas about formats -/

namespace VS.Format
open VS

theorem pow_cases (k : Nat) : 2 ^ k = 1 ∨ 2 ^ k = 2 ∨ 4 ≤ 2 ^ k := by
  match k with
  | 0 => left; rfl
  | 1 => right; left; rfl
  | k + 2 =>
    right; right
    have := Nat.one_le_two_pow (n := k)
    rw [Nat.pow_add]; omega

theorem smallestBytes_unique {bits a b : Int} (ha : SmallestBytes bits a) (hb : SmallestBytes bits b) :
    a = b := by
  obtain ⟨⟨k, ek⟩, la, ma⟩ := ha
  obtain ⟨⟨l, el⟩, lb, mb⟩ := hb
  have h1 := ma l (by rw [← el]; exact lb)
  have h2 := mb k (by rw [← ek]; exact la)
  omega

theorem smallest_1 {bits : Int} (h : bits ≤ 8) : SmallestBytes bits 1 := by
  refine ⟨⟨0, rfl⟩, by omega, fun k _ => ?_⟩
  have := Nat.one_le_two_pow (n := k); omega

theorem smallest_2 {bits : Int} (h0 : 8 < bits) (h : bits ≤ 16) : SmallestBytes bits 2 := by
  refine ⟨⟨1, rfl⟩, by omega, fun k hk => ?_⟩
  rcases pow_cases k with e | e | e <;> omega

theorem smallest_4 {bits : Int} (h0 : 16 < bits) (h : bits ≤ 32) : SmallestBytes bits 4 := by
  refine ⟨⟨2, rfl⟩, by omega, fun k hk => ?_⟩
  rcases pow_cases k with e | e | e <;> omega

theorem bytesLoop_1 {bits : Int} (h : bits ≤ 8) : bytesLoop 31 1 bits = 1 := by
  have : ¬ (1 * 8 < bits) := by omega
  simp [bytesLoop]; omega

theorem bytesLoop_2 {bits : Int} (h0 : 8 < bits) (h : bits ≤ 16) : bytesLoop 31 1 bits = 2 := by
  simp [bytesLoop]; omega

theorem bytesLoop_4 {bits : Int} (h0 : 16 < bits) (h : bits ≤ 32) : bytesLoop 31 1 bits = 4 := by
  have h1 : 8 < bits := by omega
  simp [bytesLoop, h0, h1]; omega

theorem bytesLoop_smallest {bits : Int} (h : bits ≤ 32) : SmallestBytes bits (bytesLoop 31 1 bits) := by
  by_cases h1 : bits ≤ 8
  · rw [bytesLoop_1 h1]; exact smallest_1 h1
  · by_cases h2 : bits ≤ 16
    · rw [bytesLoop_2 (by omega) h2]; exact smallest_2 (by omega) h2
    · rw [bytesLoop_4 (by omega) h]; exact smallest_4 (by omega) h

theorem valid_iff {c t b w h : Int} (hc : c ≠ cfUndefined) :
    isValidVideoFormat c t b w h = true ↔ Documented c t b w h := by
  unfold isValidVideoFormat Documented
  simp only [cfUndefined, cfGray, cfRGB, cfYUV, stInteger, stFloat] at *
  repeat' split
  all_goals simp
  all_goals omega

theorem bitCount_eq (n x : Nat) :
    bitCount n x = ((List.range n).filter fun i => x.testBit i).length := by
  induction n generalizing x with
  | zero => rfl
  | succ n ih =>
    rw [bitCount, ih, List.range_succ_eq_map, List.filter_cons]
    have e : ((List.map Nat.succ (List.range n)).filter fun i => x.testBit i).length =
        ((List.range n).filter fun i => (x / 2).testBit i).length := by
      rw [List.filter_map, List.length_map]
      congr 1
      apply List.filter_congr
      intro i _
      simp [Function.comp, Nat.testBit_succ]
    rw [Nat.testBit_zero]
    rcases Nat.mod_two_eq_zero_or_one x with h | h <;> simp [h, e] <;> omega

theorem validAudio_iff {t b : Int} {l : Nat} :
    isValidAudioFormat t b l = true ↔ DocumentedAudio t b l := by
  unfold isValidAudioFormat DocumentedAudio
  simp only [stInteger, stFloat] at *
  repeat' split
  all_goals simp
  all_goals omega

theorem pack2 (a b k n : Nat) (hb : b < 2 ^ n) :
    (a <<< (n + k)) ||| (b <<< k) = (a * 2 ^ n + b) <<< k := by
  rw [Nat.shiftLeft_add, ← Nat.shiftLeft_or_distrib, Nat.shiftLeft_eq a n, Nat.mul_comm a,
    Nat.two_pow_add_eq_or_of_lt hb]

/-- Bits put side by side are a sum. -/
theorem pack (a b c d e : Nat) (hb : b < 16) (hc : c < 256) (hd : d < 256) (he : e < 256) :
    (a <<< 28) ||| (b <<< 24) ||| (c <<< 16) ||| (d <<< 8) ||| (e <<< 0) =
      a * 268435456 + b * 16777216 + c * 65536 + d * 256 + e := by
  rw [pack2 a b 24 4 hb, pack2 _ c 16 8 hc, pack2 _ d 8 8 hd, pack2 _ e 0 8 he, Nat.shiftLeft_zero]
  have e1 : (2 : Nat) ^ 4 = 16 := rfl
  have e2 : (2 : Nat) ^ 8 = 256 := rfl
  rw [e1, e2]
  omega

theorem field (x k n : Nat) : (x >>> k) &&& (2 ^ n - 1) = x / 2 ^ k % 2 ^ n := by
  rw [Nat.and_two_pow_sub_one_eq_mod, Nat.shiftRight_eq_div_pow]

theorem f28 (x : Nat) : (x >>> 28) &&& 0xF = x / 268435456 % 16 := field x 28 4
theorem f24 (x : Nat) : (x >>> 24) &&& 0xF = x / 16777216 % 16 := field x 24 4
theorem f16 (x : Nat) : (x >>> 16) &&& 0xFF = x / 65536 % 256 := field x 16 8
theorem f8 (x : Nat) : (x >>> 8) &&& 0xFF = x / 256 % 256 := field x 8 8
theorem f0 (x : Nat) : (x >>> 0) &&& 0xFF = x % 256 := by
  have := field x 0 8; simpa using this

theorem lowBits_of {x : Int} {n : Nat} (h0 : 0 ≤ x) (h : x < ((2 ^ n : Nat) : Int)) :
    lowBits x n = x.toNat := by
  unfold lowBits; rw [Int.emod_eq_of_lt h0 h]

theorem bounds {c t b w h : Int} (d : Documented c t b w h) :
    1 ≤ c ∧ c < 16 ∧ 0 ≤ t ∧ t < 16 ∧ 0 ≤ b ∧ b < 256 ∧ 0 ≤ w ∧ w < 256 ∧ 0 ≤ h ∧ h < 256 := by
  obtain ⟨d1, d2, d3, d4, d5⟩ := d
  simp only [cfGray, cfRGB, cfYUV, stInteger, stFloat] at *
  omega

/-- The identifier of a documented format. -/
theorem id_of_documented {c t b w h : Int} (d : Documented c t b w h) :
    queryVideoFormatID c t b w h =
      c.toNat * 268435456 + t.toNat * 16777216 + b.toNat * 65536 + w.toNat * 256 + h.toNat := by
  have hc : c ≠ cfUndefined := by
    have := d.1; simp only [cfGray, cfRGB, cfYUV, cfUndefined] at *; omega
  have hv := (valid_iff hc).2 d
  unfold queryVideoFormatID
  have e : (c == cfUndefined) = false := by simpa using hc
  rw [hv, e]
  simp only [Bool.not_true, Bool.or_false, Bool.false_eq_true, if_false]
  obtain ⟨d1, d2, d3, d4, d5⟩ := d
  simp only [cfGray, cfRGB, cfYUV, cfUndefined, stInteger, stFloat] at *
  rw [lowBits_of (x := c) (by omega) (by omega), lowBits_of (x := t) (by omega) (by omega),
    lowBits_of (x := b) (by omega) (by omega), lowBits_of (x := w) (by omega) (by omega),
    lowBits_of (x := h) (by omega) (by omega)]
  exact pack _ _ _ _ _ (by omega) (by omega) (by omega) (by omega)

theorem id_int {c t b w h : Int} (d : Documented c t b w h) :
    (queryVideoFormatID c t b w h : Int) =
      c * 268435456 + t * 16777216 + b * 65536 + w * 256 + h := by
  rw [id_of_documented d]
  obtain ⟨a0, a1, a2, a3, a4, a5, a6, a7, a8, a9⟩ := bounds d
  clear d
  obtain ⟨c, rfl⟩ := Int.eq_ofNat_of_zero_le (show 0 ≤ c by omega)
  obtain ⟨t, rfl⟩ := Int.eq_ofNat_of_zero_le a2
  obtain ⟨b, rfl⟩ := Int.eq_ofNat_of_zero_le a4
  obtain ⟨w, rfl⟩ := Int.eq_ofNat_of_zero_le a6
  obtain ⟨h, rfl⟩ := Int.eq_ofNat_of_zero_le a8
  simp only [Int.toNat_natCast]
  omega

theorem isV3Id_iff {x : Nat} (hx : x < 4294967296) : isV3Id x = true ↔ 0 < x ∧ x < 16777216 := by
  unfold isV3Id
  have e2 : x &&& 0x00FFFFFF = x % 16777216 := Nat.and_two_pow_sub_one_eq_mod (x := x) (n := 24)
  have e1 : (x &&& 0xFF000000) / 16777216 = x / 16777216 % 256 := by
    have := Nat.shiftRight_and_distrib (a := x) (b := 0xFF000000) (i := 24)
    rw [Nat.shiftRight_eq_div_pow, Nat.shiftRight_eq_div_pow, Nat.shiftRight_eq_div_pow] at this
    have k := Nat.and_two_pow_sub_one_eq_mod (x := x / 16777216) (n := 8)
    exact this.trans k
  have e3 : (x &&& 0xFF000000) % 16777216 = 0 := by
    have := Nat.and_mod_two_pow (a := x) (b := 0xFF000000) (n := 24)
    simpa using this
  have e4 : (x &&& 0xFF000000) = 0 ↔ x < 16777216 := by omega
  simp only [e2, Bool.and_eq_true, beq_iff_eq, bne_iff_ne, e4]
  omega

end VS.Format
