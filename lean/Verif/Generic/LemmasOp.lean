import Verif.Generic.Lemmas

/-! # Lemmas about the kernels and their arguments -/

namespace VS.Generic
open VS VS.Format VS.Map VS.Map.Spec VS.Pix VS.Pix.Spec VS.Point VS.Point.Spec VS.Pixel VS.Pixel.Spec VS.Generic.Spec

variable (F : Floats)

/-! ## Arguments -/

theorem pow_top (f : VFmt) : ((2 : Int) ^ f.bitsPerSample.toNat - 1) = top f := by
  have := Nat.pow_pos (n := f.bitsPerSample.toNat) (show 0 < 2 by decide)
  unfold top
  rw [Int.ofNat_sub (by omega)]
  simp

theorem top_16 {f : VFmt} (h : f.bitsPerSample ≤ 16) : top f ≤ 65535 := by
  have : 2 ^ f.bitsPerSample.toNat ≤ 2 ^ 16 := Nat.pow_le_pow_right (by decide) (by omega)
  unfold top
  omega

theorem maxSample_eq {f : VFmt} (h : f.bitsPerSample ≤ 16) : maxSample f = top f := by
  have := top_16 h
  show top f % 65536 = _
  omega

/-- A number that is rounded to a sample. -/
theorem round_ok {q : Rat} {t : Nat} (ht : t ≤ 65535) (h0 : -1 / 2 < q) (h1 : q < t + 1 / 2) :
    ∃ n : Nat, floatToInt64S q = n ∧ n ≤ t ∧ rabs (q - n) ≤ 1 / 2 := by
  have htr : (t : Rat) ≤ 65535 := by
    have : (t : Rat) ≤ ((65535 : Nat) : Rat) := by exact_mod_cast ht
    grind
  unfold floatToInt64S
  rw [if_neg (by grind), if_neg (by grind)]
  by_cases c : 0 ≤ q
  · rw [if_pos c]
    have a1 : (0 : Int) ≤ (q + 1 / 2).floor := Rat.le_floor_iff.2 (by simp; grind)
    have a2 : (q + 1 / 2).floor < (t : Int) + 1 := Rat.floor_lt_iff.2 (by push_cast; grind)
    have b1 := Rat.floor_le (q + 1 / 2)
    have b2 := Rat.lt_floor_add_one (q + 1 / 2)
    refine ⟨(q + 1 / 2).floor.toNat, by omega, by omega, ?_⟩
    have e : (((q + 1 / 2).floor.toNat : Nat) : Rat) = (((q + 1 / 2).floor : Int) : Rat) := by
      have : (((q + 1 / 2).floor.toNat : Nat) : Int) = (q + 1 / 2).floor := by omega
      rw [← Rat.intCast_natCast, this]
    rw [e, rabs_le]
    constructor <;> grind
  · rw [if_neg c]
    have a1 : (0 : Int) ≤ (-q + 1 / 2).floor := Rat.le_floor_iff.2 (by simp; grind)
    have a2 : (-q + 1 / 2).floor < 1 := Rat.floor_lt_iff.2 (by simp; grind)
    have : (-q + 1 / 2).floor = 0 := by omega
    refine ⟨0, by omega, by omega, ?_⟩
    rw [rabs_le]
    constructor <;> simp <;> grind

theorem round_bad {q : Rat} {t : Nat} (ht : t ≤ 65535) (h : q ≤ -1 / 2 ∨ (t : Rat) + 1 / 2 ≤ q) :
    floatToInt64S q < 0 ∨ floatToInt64S q > t := by
  have ht0 : (0 : Rat) ≤ t := by exact_mod_cast Nat.zero_le t
  unfold floatToInt64S
  rcases h with h | h
  · left
    rw [if_neg (by grind)]
    split
    · omega
    · rw [if_neg (by grind)]
      have : (1 : Int) ≤ (-q + 1 / 2).floor := Rat.le_floor_iff.2 (by simp; grind)
      omega
  · right
    split
    · omega
    · rw [if_neg (by grind), if_pos (by grind)]
      have : (t : Int) + 1 ≤ (q + 1 / 2).floor := Rat.le_floor_iff.2 (by push_cast; grind)
      omega

theorem threshold_ok (name : String) {f : VFmt} (ht : f.sampleType = stInteger) (h16 : f.bitsPerSample ≤ 16) {arg : Option Nat}
    (h : ThresholdOk F f arg) : ∃ t, getThreshold F name f arg = .ok t ∧ ThresholdIs F f arg t := by
  have t16 := top_16 h16
  cases arg with
  | none => exact ⟨top f, by show Res.ok (maxSample f) = _; rw [maxSample_eq h16], by omega, Or.inl ⟨rfl, rfl⟩⟩
  | some b =>
    obtain ⟨q, e, h0, h1⟩ := h b rfl
    obtain ⟨n, e', hn, hq⟩ := round_ok t16 h0 h1
    refine ⟨n, ?_, hn, Or.inr ⟨b, q, rfl, e, hq⟩⟩
    unfold getThreshold
    dsimp only
    rw [e]
    dsimp only
    rw [if_pos ht, e', pow_top, if_neg (by omega)]
    congr 1
    omega

theorem threshold_bad (name : String) {f : VFmt} (ht : f.sampleType = stInteger) (h16 : f.bitsPerSample ≤ 16) {arg : Option Nat}
    (h : ¬ ThresholdOk F f arg) : ∃ m, getThreshold F name f arg = .err m := by
  have t16 := top_16 h16
  cases arg with
  | none => exact absurd (fun b hb => by cases hb) h
  | some b =>
    unfold getThreshold
    dsimp only
    cases e : single F b with
    | none => exact ⟨_, rfl⟩
    | some q =>
      dsimp only
      rw [if_pos ht, pow_top, if_pos]
      · exact ⟨_, rfl⟩
      · refine round_bad t16 ?_
        refine Decidable.byContradiction fun hc => h ?_
        intro b' hb
        cases hb
        refine ⟨q, e, ?_, ?_⟩ <;> grind

/-- Floats. -/
theorem threshold_float (name : String) {f : VFmt} (ht : f.sampleType = stFloat) (arg : Option Nat) :
    ((∀ b, arg = some b → ∃ q, single F b = some q ∧ 0 ≤ q) → ∃ t, getThreshold F name f arg = .ok t) ∧
    ((∃ b, arg = some b ∧ ∀ q, single F b = some q → q < 0) → ∃ m, getThreshold F name f arg = .err m) := by
  have n1 : (stFloat : Int) ≠ stInteger := by decide
  constructor
  · intro h
    cases arg with
    | none => exact ⟨_, rfl⟩
    | some b =>
      obtain ⟨q, e, h0⟩ := h b rfl
      unfold getThreshold
      dsimp only
      rw [e]
      dsimp only
      rw [if_neg (by rw [ht]; exact n1), if_neg (by grind)]
      exact ⟨_, rfl⟩
  · rintro ⟨b, rfl, h⟩
    unfold getThreshold
    dsimp only
    cases e : single F b with
    | none => exact ⟨_, rfl⟩
    | some q =>
      dsimp only
      rw [if_neg (by rw [ht]; exact n1), if_pos (h q e)]
      exact ⟨_, rfl⟩

theorem getThreshold_safe (name : String) (f : VFmt) (arg : Option Nat) :
    (∀ {m}, getThreshold F name f arg ≠ .fatal m) ∧ getThreshold F name f arg ≠ .ub := by
  unfold getThreshold
  repeat' split
  all_goals exact ⟨fun h => (by cases h), fun h => (by cases h)⟩

theorem stencil_bits : ∀ b0 b1 b2 b3 b4 b5 b6 b7 : Bool,
    let e := ((((((((0 ||| (if b0 then 1 else 0)) ||| (if b1 then 2 else 0)) ||| (if b2 then 4 else 0)) ||| (if b3 then 8 else 0)) |||
      (if b4 then 16 else 0)) ||| (if b5 then 32 else 0)) ||| (if b6 then 64 else 0)) ||| (if b7 then 128 else 0))
    Nat.testBit e 0 = b0 ∧ Nat.testBit e 1 = b1 ∧ Nat.testBit e 2 = b2 ∧ Nat.testBit e 3 = b3 ∧ Nat.testBit e 4 = b4 ∧
      Nat.testBit e 5 = b5 ∧ Nat.testBit e 6 = b6 ∧ Nat.testBit e 7 = b7 := by
  decide

theorem stencil_ok (name : String) {coords : Option (List Int)} (h : CoordsOk coords) :
    ∃ s, getStencil name coords = .ok s ∧ ∀ i, i < 8 → s.testBit i = decide (Enabled coords i) := by
  cases coords with
  | none =>
    refine ⟨0xFF, rfl, ?_⟩
    intro i hi
    rw [decide_eq_true (show Enabled none i from fun l h => by cases h)]
    match i, hi with
    | 0, _ | 1, _ | 2, _ | 3, _ | 4, _ | 5, _ | 6, _ | 7, _ => rfl
  | some l =>
    match l, h l rfl with
    | [c0, c1, c2, c3, c4, c5, c6, c7], _ =>
      refine ⟨_, rfl, ?_⟩
      have en : ∀ i, decide (Enabled (some [c0, c1, c2, c3, c4, c5, c6, c7]) i) = decide ([c0, c1, c2, c3, c4, c5, c6, c7].getD i 0 ≠ 0) := by
        intro i
        by_cases c : [c0, c1, c2, c3, c4, c5, c6, c7].getD i 0 ≠ 0
        · rw [decide_eq_true c, decide_eq_true]
          intro l e
          cases e
          exact c
        · rw [decide_eq_false c, decide_eq_false]
          intro e
          exact c (e _ rfl)
      have key := stencil_bits (decide (c0 ≠ 0)) (decide (c1 ≠ 0)) (decide (c2 ≠ 0)) (decide (c3 ≠ 0)) (decide (c4 ≠ 0)) (decide (c5 ≠ 0))
        (decide (c6 ≠ 0)) (decide (c7 ≠ 0))
      simp only [decide_eq_true_eq] at key
      obtain ⟨k0, k1, k2, k3, k4, k5, k6, k7⟩ := key
      intro i hi
      rw [en]
      match i, hi with
      | 0, _ => exact k0
      | 1, _ => exact k1
      | 2, _ => exact k2
      | 3, _ => exact k3
      | 4, _ => exact k4
      | 5, _ => exact k5
      | 6, _ => exact k6
      | 7, _ => exact k7

theorem stencil_bad (name : String) {coords : Option (List Int)} (h : ¬ CoordsOk coords) : ∃ m, getStencil name coords = .err m := by
  cases coords with
  | none => exact absurd (fun b hb => by cases hb) h
  | some l =>
    unfold getStencil
    split
    · next e => cases e
    · next e =>
      cases e
      exact absurd (fun l e => by cases e; rfl) h
    · exact ⟨_, rfl⟩

/-! ## Minimum and Maximum -/

theorem pick_min (s i a v : Nat) : pick false s i a v = if s.testBit i then min v a else v := by
  unfold pick reduce
  rw [if_neg (by decide)]
  split
  · rfl
  · omega

theorem pick_max (s i a v : Nat) : pick true s i a v = if s.testBit i then max v a else v := by
  unfold pick reduce
  rw [if_pos rfl]
  split
  · rfl
  · omega

theorem fold_min (L : List ((Int × Int) × Nat)) (p : (Int × Int) × Nat → Bool) (g : (Int × Int) × Nat → Nat) (v : Nat) :
    (v :: (L.filter p).map g).min?.getD 0 = L.foldl (fun a d => if p d then min a (g d) else a) v := by
  rw [List.min?_cons', Option.getD_some, List.foldl_map, List.foldl_filter]

theorem fold_max (L : List ((Int × Int) × Nat)) (p : (Int × Int) × Nat → Bool) (g : (Int × Int) × Nat → Nat) (v : Nat) :
    (v :: (L.filter p).map g).max?.getD 0 = L.foldl (fun a d => if p d then max a (g d) else a) v := by
  rw [List.max?_cons', Option.getD_some, List.foldl_map, List.foldl_filter]

theorem minMax_eq {coords : Option (List Int)} {s : Nat} (hs : ∀ i, i < 8 → s.testBit i = decide (Enabled coords i)) (th : Nat)
    (v : Nat → Nat → Nat) (w h x y : Nat) :
    minMaxOp false th s (rows9 v w h x y) = max ((chosen coords v w h x y).min?.getD 0) (v x y - th) ∧
    minMaxOp true th s (rows9 v w h x y) = min ((chosen coords v w h x y).max?.getD 0) (v x y + th) := by
  unfold minMaxOp rows9 chosen
  rw [fold_min, fold_max]
  dsimp only
  simp only [pick_min, pick_max, offsets, List.zipIdx, List.foldl_cons, List.foldl_nil, ← hs 0 (by omega), ← hs 1 (by omega),
    ← hs 2 (by omega), ← hs 3 (by omega), ← hs 4 (by omega), ← hs 5 (by omega), ← hs 6 (by omega), ← hs 7 (by omega)]
  constructor
  · generalize (if s.testBit 7 = true then _ else _) = m
    rw [if_neg (show ¬ (false = true) by decide)]
    omega
  · generalize (if s.testBit 7 = true then _ else _) = m
    rfl

/-! ## Deflate and Inflate -/

theorem flate_eq (th : Nat) {v : Nat → Nat → Nat} (hv : ∀ x y, v x y < 65536) (w h x y : Nat) :
    flateOp false th (rows9 v w h x y) = max (min (mean8 v w h x y) (v x y)) (v x y - th) ∧
    flateOp true th (rows9 v w h x y) = min (max (mean8 v w h x y) (v x y)) (v x y + th) := by
  unfold flateOp rows9 mean8
  simp only [offsets, List.map_cons, List.map_nil, List.sum_cons, List.sum_nil]
  have := hv (nearest w (x + -1)) (nearest h (y + -1))
  have := hv (nearest w (x + 0)) (nearest h (y + -1))
  have := hv (nearest w (x + 1)) (nearest h (y + -1))
  have := hv (nearest w (x + -1)) (nearest h (y + 0))
  have := hv (nearest w (x + 1)) (nearest h (y + 0))
  have := hv (nearest w (x + -1)) (nearest h (y + 1))
  have := hv (nearest w (x + 0)) (nearest h (y + 1))
  have := hv (nearest w (x + 1)) (nearest h (y + 1))
  unfold nbr
  dsimp only
  have : ∀ a : Nat, ((false = true) : Prop) = False := by simp
  simp only [Bool.false_eq_true, if_false, if_true]
  constructor <;> omega

/-! ## Prewitt and Sobel -/

theorem grad_eq (sobel : Bool) (k : Kind) (s : Rat) (v : Nat → Nat → Nat) (w h x y : Nat) :
    gradOp F sobel k s (rows9 v w h x y) =
      xrint k (F.rnd (F.root (weighted (down (if sobel then 2 else 1)) v w h x y) (weighted (right (if sobel then 2 else 1)) v w h x y) * s)) := by
  unfold gradOp rows9 weighted down right
  simp only [List.map_cons, List.map_nil, List.sum_cons, List.sum_nil]
  cases sobel
  · simp only [Bool.false_eq_true, if_false]
    congr 4 <;> omega
  · simp only [if_true]
    congr 4 <;> omega

theorem le_of_sq {a b : Rat} (hb : 0 ≤ b) (h : a * a ≤ b * b) : a ≤ b := by
  refine Decidable.byContradiction fun hc => ?_
  have h1 : b < a := by grind
  have h2 : b * b ≤ a * b := Rat.mul_le_mul_of_nonneg_right (by grind) hb
  have h3 : a * b < a * a := (Rat.mul_lt_mul_left (by grind)).2 h1
  grind

/-- The root from below and from above. -/
theorem root_bounds (gx gy : Int) {r : Rat} (hr : 0 ≤ r) :
    (r * r ≤ ((gx * gx + gy * gy : Int) : Rat) → r * (1 - 1 / 2 ^ 21) ≤ F.root gx gy) ∧
    (((gx * gx + gy * gy : Int) : Rat) ≤ r * r → F.root gx gy ≤ r * (1 + 1 / 2 ^ 21)) := by
  have h0 := F.root_nonneg gx gy
  have hc := rabs_le.1 (F.root_close gx gy)
  generalize F.root gx gy = t at *
  generalize ((gx * gx + gy * gy : Int) : Rat) = N at *
  have hrr : 0 ≤ r * r := Rat.mul_nonneg hr hr
  constructor
  · intro h
    refine le_of_sq h0 ?_
    have e : r * (1 - 1 / 2 ^ 21) * (r * (1 - 1 / 2 ^ 21)) = r * r * ((1 - 1 / 2 ^ 21) * (1 - 1 / 2 ^ 21)) := by grind
    rw [e]
    grind
  · intro h
    refine le_of_sq (Rat.mul_nonneg hr (by decide +kernel)) ?_
    have e : r * (1 + 1 / 2 ^ 21) * (r * (1 + 1 / 2 ^ 21)) = r * r * ((1 + 1 / 2 ^ 21) * (1 + 1 / 2 ^ 21)) := by grind
    rw [e]
    grind

theorem lrint_close (q : Rat) : rabs ((lrint q : Int) - q) ≤ 1 / 2 := by
  have h1 := Rat.floor_le q
  have h2 := Rat.lt_floor_add_one q
  unfold lrint
  rw [rabs_le]
  dsimp only
  split
  · constructor <;> grind
  · split
    · push_cast
      constructor <;> grind
    · split
      · constructor <;> grind
      · push_cast
        constructor <;> grind

theorem lrint_mono {a b : Int} {q : Rat} (h1 : (a : Rat) ≤ q) (h2 : q ≤ b) : a ≤ lrint q ∧ lrint q ≤ b := by
  have := rabs_le.1 (lrint_close q)
  have c1 : ((a : Int) : Rat) < ((lrint q + 1 : Int) : Rat) := by push_cast; grind
  have c2 : ((lrint q : Int) : Rat) < ((b + 1 : Int) : Rat) := by push_cast; grind
  have c1 := Rat.intCast_lt_intCast.1 c1
  have c2 := Rat.intCast_lt_intCast.1 c2
  omega

/-- Rounding to samples. -/
theorem xrint_near (k : Kind) (q : Rat) {t : Nat} (ht : t ≤ typeMax k) :
    rabs ((min (xrint k q) t : Nat) - max 0 (min q t)) ≤ 1 / 2 := by
  unfold xrint
  have htr : (t : Rat) ≤ ((typeMax k : Nat) : Rat) := by exact_mod_cast ht
  have ht0 : (0 : Rat) ≤ t := by exact_mod_cast Nat.zero_le t
  generalize ((typeMax k : Nat) : Rat) = M at *
  have hb := rabs_le.1 (lrint_close (min (max q 0) M))
  have h0 : 0 ≤ lrint (min (max q 0) M) := by
    have := Rat.intCast_lt_intCast.1 (show ((-1 : Int) : Rat) < (lrint (min (max q 0) M) : Rat) by simp; grind)
    omega
  have e : ((min (lrint (min (max q 0) M)).toNat t : Nat) : Rat) = min (lrint (min (max q 0) M) : Rat) t := by
    have : ((min (lrint (min (max q 0) M)).toNat t : Nat) : Int) = min (lrint (min (max q 0) M)) t := by omega
    rw [← Rat.intCast_natCast, this, ← Rat.intCast_natCast]
    generalize lrint (min (max q 0) M) = L
    by_cases c : L ≤ t
    · have := Rat.intCast_le_intCast.2 c
      rw [show min L (t : Int) = L by omega]
      grind
    · have := Rat.intCast_le_intCast.2 (show (t : Int) ≤ L by omega)
      rw [show min L (t : Int) = t by omega]
      grind
  rw [e, rabs_le]
  grind

end VS.Generic
