import Verif.Average.Spec
import Verif.Levels.Props

/-! # Lemmas about AverageFrames -/

namespace VS.Average
open VS VS.Format VS.Map VS.Map.Spec VS.Pix VS.Pix.Spec VS.Point VS.Point.Spec VS.Pixel VS.Pixel.Spec VS.Generic VS.Generic.Spec VS.Average.Spec
open VS.Levels (rnd_int_close rabs_pos rounds_unique)

/-! ## Sums -/

/-- The sum of the absolute values. -/
def wabs : List Int → Nat
  | [] => 0
  | w :: t => w.natAbs + wabs t

theorem i32_ok {z : Int} (h : z.natAbs < 2 ^ 31) : i32 z = .ok z := by
  unfold i32
  rw [if_pos (by unfold InI32 INT_MIN INT_MAX; omega)]

theorem accum_ok {bias : Int} {v : Nat → Nat} {V : Nat} : ∀ (ws : List Int) (i : Nat) (a : Int),
    (∀ j, i ≤ j → j < i + ws.length → ((v j : Int) - bias).natAbs ≤ V) → a.natAbs + V * wabs ws < 2 ^ 31 →
    accum bias (((List.range' i ws.length).map v).zip ws) a = .ok (a + wsum (fun i => (v i : Int) - bias) i ws) := by
  intro ws
  induction ws with
  | nil => intro i a _ _; show Res.ok a = _; unfold wsum; rw [Int.add_zero]
  | cons w t ih =>
    intro i a hV h
    rw [List.length_cons] at hV
    unfold wabs at h
    rw [Nat.mul_add] at h
    have hp : (((v i : Int) - bias) * w).natAbs ≤ V * w.natAbs := by
      rw [Int.natAbs_mul]
      exact Nat.mul_le_mul_right _ (hV i (by omega) (by omega))
    rw [List.length_cons, List.range'_succ, List.map_cons, List.zip_cons_cons]
    unfold accum wsum
    rw [i32_ok (by omega), Res.bind_ok, i32_ok (by omega), Res.bind_ok, ih (i + 1) _ (fun j h1 h2 => hV j (by omega) (by omega)) (by omega)]
    congr 1
    rw [Int.mul_comm w]
    omega

theorem wabs_le {ws : List Int} (h : ∀ w ∈ ws, w.natAbs ≤ 1023) : wabs ws ≤ 1023 * ws.length := by
  induction ws with
  | nil => exact Nat.le_refl _
  | cons w t ih =>
    have h1 := h w List.mem_cons_self
    have := ih fun x hx => h x (List.mem_cons_of_mem _ hx)
    unfold wabs
    rw [List.length_cons]
    omega

theorem wsum_abs {v : Nat → Int} {V : Nat} : ∀ (ws : List Int) (i : Nat), (∀ j, i ≤ j → j < i + ws.length → (v j).natAbs ≤ V) →
    (wsum v i ws).natAbs ≤ V * wabs ws := by
  intro ws
  induction ws with
  | nil => intro i _; exact Nat.le_of_eq (by simp [wsum, wabs])
  | cons w t ih =>
    intro i hV
    rw [List.length_cons] at hV
    unfold wsum wabs
    have := ih (i + 1) fun j h1 h2 => hV j (by omega) (by omega)
    have hp : (w * v i).natAbs ≤ V * w.natAbs := by
      rw [Int.natAbs_mul, Nat.mul_comm]
      exact Nat.mul_le_mul_right _ (hV i (by omega) (by omega))
    rw [Nat.mul_add]
    omega

theorem wsum_congr {v u : Nat → Int} : ∀ (ws : List Int) (i : Nat), (∀ j, i ≤ j → j < i + ws.length → v j = u j) →
    wsum v i ws = wsum u i ws := by
  intro ws
  induction ws with
  | nil => intro i _; rfl
  | cons w t ih =>
    intro i h
    rw [List.length_cons] at h
    unfold wsum
    rw [h i (by omega) (by omega), ih (i + 1) fun j h1 h2 => h j (by omega) (by omega)]

theorem wsum_const (c : Int) : ∀ (ws : List Int) (i : Nat), wsum (fun _ => c) i ws = c * ws.sum := by
  intro ws
  induction ws with
  | nil => intro i; simp [wsum]
  | cons w t ih =>
    intro i
    unfold wsum
    rw [ih, List.sum_cons, Int.mul_add, Int.mul_comm w]

/-! ## Scenes -/

theorem set_wsum (v : Nat → Int) (e : Int) : ∀ (l : List Int) (c i : Nat), c < l.length →
    wsum v i (l.set c (l.getD c 0 + e)) = wsum v i l + e * v (i + c) := by
  intro l
  induction l with
  | nil => intro c i h; cases h
  | cons w t ih =>
    intro c i h
    cases c with
    | zero =>
      rw [List.set_cons_zero, List.getD_cons_zero]
      unfold wsum
      rw [Int.add_mul, Nat.add_zero]
      simp only [Nat.add_zero]; omega
    | succ c =>
      rw [List.set_cons_succ, List.getD_cons_succ]
      unfold wsum
      rw [ih c (i + 1) (by rw [List.length_cons] at h; omega), show i + 1 + c = i + (c + 1) by omega]
      omega

theorem set_wabs (e : Int) : ∀ (l : List Int) (c : Nat), wabs (l.set c (l.getD c 0 + e)) ≤ wabs l + e.natAbs := by
  intro l
  induction l with
  | nil => intro c; exact Nat.zero_le _
  | cons w t ih =>
    intro c
    cases c with
    | zero =>
      rw [List.set_cons_zero, List.getD_cons_zero]
      unfold wabs
      omega
    | succ c =>
      rw [List.set_cons_succ, List.getD_cons_succ]
      unfold wabs
      have := ih c
      omega

theorem cleared_wabs (a b : Nat) : ∀ (ws : List Int) (i : Nat), wabs (cleared a b i ws) + (outside a b i ws).natAbs ≤ wabs ws := by
  intro ws
  induction ws with
  | nil => intro i; exact Nat.le_refl _
  | cons w t ih =>
    intro i
    unfold cleared outside wabs
    have := ih (i + 1)
    split <;> omega

theorem cleared_length (a b : Nat) : ∀ (ws : List Int) (i : Nat), (cleared a b i ws).length = ws.length := by
  intro ws
  induction ws with
  | nil => intro i; rfl
  | cons w t ih => intro i; unfold cleared; rw [List.length_cons, List.length_cons, ih]

theorem cleared_wsum (a b : Nat) (v : Nat → Int) (U : Int) : ∀ (ws : List Int) (i : Nat),
    wsum v i (cleared a b i ws) + outside a b i ws * U = wsum (fun j => if b < j ∨ j < a then U else v j) i ws := by
  intro ws
  induction ws with
  | nil => intro i; simp [cleared, outside, wsum]
  | cons w t ih =>
    intro i
    have := ih (i + 1)
    unfold cleared outside wsum
    by_cases h : b < i ∨ i < a
    · rw [if_pos h, if_pos h, if_pos h, Int.add_mul, Int.zero_mul]
      omega
    · rw [if_neg h, if_neg h, if_neg h, Int.zero_add]
      omega

theorem moved_length (a b : Nat) (ws : List Int) : (moved a b ws).length = ws.length := by
  unfold moved
  rw [List.length_set, cleared_length]

theorem moved_wabs (a b : Nat) (ws : List Int) : wabs (moved a b ws) ≤ wabs ws :=
  Nat.le_trans (set_wabs _ _ _) (cleared_wabs a b ws 0)

theorem moved_wsum (a b : Nat) {ws : List Int} (h : ws ≠ []) (v : Nat → Int) :
    wsum v 0 (moved a b ws) = wsum (fun j => if b < j ∨ j < a then v (ws.length / 2) else v j) 0 ws := by
  unfold moved
  have hl := List.length_pos_iff.2 h
  rw [set_wsum v _ _ _ _ (by rw [cleared_length]; omega), Nat.zero_add, cleared_wsum]

theorem from_spec (prev : Nat → Bool) : ∀ r : Nat, fromLoop prev r ≤ r ∧ ∀ i, i ≤ r → ((∀ j, i < j → j ≤ r → prev j = false) ↔ fromLoop prev r ≤ i) := by
  intro r
  induction r with
  | zero => exact ⟨Nat.le_refl _, fun i _ => ⟨fun _ => Nat.zero_le _, fun _ j h1 h2 => by omega⟩⟩
  | succ r ih =>
    unfold fromLoop
    by_cases h : prev (r + 1) = true
    · rw [if_pos h]
      refine ⟨Nat.le_refl _, fun i hi => ⟨fun hj => ?_, fun hle j h1 h2 => by omega⟩⟩
      by_cases c : i < r + 1
      · have := hj (r + 1) c (Nat.le_refl _)
        rw [h] at this
        cases this
      · omega
    · rw [if_neg h]
      refine ⟨by omega, fun i hi => ?_⟩
      by_cases c : i ≤ r
      · rw [← ih.2 i c]
        constructor
        · exact fun hj j h1 h2 => hj j h1 (by omega)
        · intro hj j h1 h2
          by_cases c2 : j = r + 1
          · subst c2
            exact Bool.eq_false_iff.2 h
          · exact hj j h1 (by omega)
      · exact ⟨fun _ => by omega, fun _ j h1 h2 => by omega⟩

theorem to_spec (next : Nat → Bool) (size : Nat) : ∀ (k s : Nat), s + k ≤ size → s ≤ toLoop next size k s ∧
    ∀ i, s ≤ i → i ≤ s + k → ((∀ j, s ≤ j → j < i → next j = false) ↔ i ≤ toLoop next size k s) := by
  intro k
  induction k with
  | zero =>
    intro s h
    unfold toLoop
    exact ⟨by omega, fun i h1 h2 => ⟨fun _ => by omega, fun _ j h3 h4 => by omega⟩⟩
  | succ k ih =>
    intro s h
    unfold toLoop
    by_cases c : next s = true
    · rw [if_pos c]
      refine ⟨Nat.le_refl _, fun i h1 h2 => ⟨fun hj => ?_, fun hle j h3 h4 => by omega⟩⟩
      by_cases c2 : s < i
      · have := hj s (Nat.le_refl _) c2
        rw [c] at this
        cases this
      · omega
    · rw [if_neg c]
      obtain ⟨i1, i2⟩ := ih (s + 1) (by omega)
      refine ⟨by omega, fun i h1 h2 => ?_⟩
      by_cases c2 : i = s
      · subst c2
        exact ⟨fun _ => by omega, fun _ j h3 h4 => by omega⟩
      · rw [← i2 i (by omega) (by omega)]
        constructor
        · exact fun hj j h3 h4 => hj j (by omega) h4
        · intro hj j h3 h4
          by_cases c3 : j = s
          · subst c3
            exact Bool.eq_false_iff.2 c
          · exact hj j (by omega) h4

theorem flag_iff (key : Key) (f : Frm) : flag key f = false ↔ ¬ Marked key f := by
  unfold flag Marked
  cases propInt f.props key with
  | none => simp
  | some i => simp

/-- The scene of the frame in the middle. -/
theorem scene_spec {k : Nat} (hk : k % 2 = 1) {fs : Nat → Frm} {prev next : Nat → Bool} (hp : ∀ j, j < k → prev j = flag "_SceneChangePrev" (fs j))
    (hn : ∀ j, j < k → next j = flag "_SceneChangeNext" (fs j)) : ∀ i, i < k →
    (InScene k fs i ↔ fromLoop prev (k / 2) ≤ i ∧ i ≤ toLoop next k (k - 1 - k / 2) (k / 2)) := by
  intro i hi
  obtain ⟨f1, f2⟩ := from_spec prev (k / 2)
  obtain ⟨t1, t2⟩ := to_spec next k (k - 1 - k / 2) (k / 2) (by omega)
  unfold InScene
  have e1 : (∀ j, i < j → j ≤ k / 2 → ¬ Marked "_SceneChangePrev" (fs j)) ↔ ∀ j, i < j → j ≤ k / 2 → prev j = false := by
    constructor
    · intro h j h1 h2
      rw [hp j (by omega), flag_iff]
      exact h j h1 h2
    · intro h j h1 h2
      rw [← flag_iff, ← hp j (by omega)]
      exact h j h1 h2
  have e2 : (∀ j, k / 2 ≤ j → j < i → ¬ Marked "_SceneChangeNext" (fs j)) ↔ ∀ j, k / 2 ≤ j → j < i → next j = false := by
    constructor
    · intro h j h1 h2
      rw [hn j (by omega), flag_iff]
      exact h j h1 h2
    · intro h j h1 h2
      rw [← flag_iff, ← hn j (by omega)]
      exact h j h1 h2
  rw [e1, e2]
  by_cases c : i ≤ k / 2
  · rw [f2 i c]
    constructor
    · exact fun h => ⟨h.1, by omega⟩
    · exact fun h => ⟨h.1, fun j h1 h2 => by omega⟩
  · rw [t2 i (by omega) (by omega)]
    constructor
    · exact fun h => ⟨by omega, h.2⟩
    · exact fun h => ⟨fun j h1 h2 => by omega, h.2⟩

/-! ## Division -/

theorem inv_close {d s i' i0 : Rat} (h1 : d * i' = 1) (h2 : s * i0 = 1) (hd : rabs (d - s) ≤ s / 2 ^ 23) (hs : 0 < s) :
    0 < i0 ∧ 0 < i' ∧ rabs (i' - i0) ≤ i0 / 2 ^ 22 := by
  have hd := rabs_le.1 hd
  have hdp : 0 < d := by grind
  have pos : ∀ x y : Rat, 0 < x → x * y = 1 → 0 < y := by
    intro x y hx hxy
    refine Rat.not_le.1 fun hc => ?_
    have := Rat.mul_nonneg (Rat.le_of_lt hx) (show 0 ≤ -y by grind)
    grind
  have hi' := pos d i' hdp h1
  have hi0 := pos s i0 hs h2
  refine ⟨hi0, hi', ?_⟩
  have hm := Rat.mul_pos hi' hi0
  have e : i' - i0 = i' * i0 * (s - d) := by grind
  have e2 : i' * i0 * s = i' := by grind
  have a1 := Rat.mul_nonneg (Rat.le_of_lt hm) (show 0 ≤ s / 2 ^ 23 - (s - d) by grind)
  have a2 := Rat.mul_nonneg (Rat.le_of_lt hm) (show 0 ≤ s / 2 ^ 23 + (s - d) by grind)
  have b1 : i' - i0 ≤ i' / 2 ^ 23 := by grind
  have b2 : -(i' / 2 ^ 23) ≤ i' - i0 := by grind
  rw [rabs_le]
  constructor <;> grind

theorem tri_close {P E Q q : Rat} (hE : rabs (P - E) ≤ rabs E / 2 ^ 22 + 1 / 2 ^ 107) (hEq : rabs (E - q) ≤ rabs q / 2 ^ 22)
    (hQ : rabs (Q - P) ≤ rabs P / 2 ^ 24 + 1 / 2 ^ 149) : rabs (Q - q) ≤ rabs q / 2 ^ 20 + 1 / 2 ^ 100 := by
  have h1 := rabs_add (P - E) E
  have h2 := rabs_add (E - q) q
  have h3 := rabs_add (Q - P) ((P - E) + (E - q))
  have h4 := rabs_add (P - E) (E - q)
  rw [show P - E + E = P by grind] at h1
  rw [show E - q + q = E by grind] at h2
  rw [show Q - P + (P - E + (E - q)) = Q - q by grind] at h3
  have := rabs_nonneg q
  grind

variable (F : AFloats)

theorem quotient_close {a sc : Int} (ha : a.natAbs < 2 ^ 31) (h1 : 1 ≤ sc) :
    rabs (F.rnd (F.rnd a * F.rnd (1 / F.rnd sc)) - (a : Rat) / sc) ≤ rabs ((a : Rat) / sc) / 2 ^ 20 + 1 / 2 ^ 100 := by
  have hs : (1 : Rat) ≤ sc := by
    have := Rat.intCast_le_intCast.2 h1
    have e : ((1 : Int) : Rat) = 1 := rfl
    grind
  have hA := rnd_int_close F.toFloats a
  have hS := rnd_int_close F.toFloats sc
  rw [rabs_pos (show (0 : Rat) ≤ sc by grind)] at hS
  have hS' := rabs_le.1 hS
  have hd : F.rnd sc * (1 / F.rnd sc) = 1 := by
    have : F.rnd sc ≠ 0 := by grind
    grind
  have hi : (sc : Rat) * (1 / sc) = 1 := by grind
  obtain ⟨p1, p2, p3⟩ := inv_close hd hi hS (by grind)
  have hab : rabs (a : Rat) ≤ 2 ^ 40 := by
    rw [rabs_int]
    have : ((a.natAbs : Int) : Rat) < ((2 ^ 31 : Int) : Rat) := Rat.intCast_lt_intCast.2 (by omega)
    have e : ((2 ^ 31 : Int) : Rat) = 2 ^ 31 := rfl
    grind
  have hP := prod_close hA (rfl : (1 / F.rnd sc) = 1 / F.rnd sc) (F.rnd_close _) hab rfl
  have e : (a : Rat) / sc = a * (1 / sc) := by grind
  rw [e]
  refine tri_close hP ?_ (F.rnd_close _)
  rw [show (a : Rat) * (1 / F.rnd sc) - a * (1 / sc) = a * (1 / F.rnd sc - 1 / sc) by grind, rabs_mul, rabs_mul, rabs_pos (Rat.le_of_lt p1)]
  have := Rat.mul_nonneg (rabs_nonneg (a : Rat)) (show 0 ≤ (1 / (sc : Rat)) / 2 ^ 22 - rabs (1 / F.rnd sc - 1 / sc) by grind)
  grind

/-- The division. -/
theorem avgOut_ok {t : Nat} (ht : t ≤ 65535) {bias sc a : Int} (hb0 : 0 ≤ bias) (hb : bias ≤ 2 ^ 15) (ha : a.natAbs ≤ 2078311455) (h1 : 1 ≤ sc) :
    ∃ r, avgOut F sc t bias a = .ok r ∧ AvgValue t bias sc a r := by
  have hq := quotient_close F (a := a) (by omega) h1
  unfold avgOut
  have hs : (1 : Rat) ≤ sc := by
    have := Rat.intCast_le_intCast.2 h1
    have e : ((1 : Int) : Rat) = 1 := rfl
    grind
  have hqa : rabs ((a : Rat) / sc) ≤ 2078311455 := by
    have e : (a : Rat) / sc = a * (1 / sc) := by grind
    have hi : (sc : Rat) * (1 / sc) = 1 := by grind
    have hab : rabs (a : Rat) ≤ 2078311455 := by
      rw [rabs_int]
      have : ((a.natAbs : Int) : Rat) ≤ ((2078311455 : Int) : Rat) := Rat.intCast_le_intCast.2 (by omega)
      have e : ((2078311455 : Int) : Rat) = 2078311455 := rfl
      grind
    have hi0 : (0 : Rat) ≤ 1 / sc := by
      refine Rat.not_lt.1 fun hc => ?_
      have := Rat.mul_pos (show (0 : Rat) < sc by grind) (show 0 < -(1 / (sc : Rat)) by grind)
      grind
    have hi1 : (1 : Rat) / sc ≤ 1 := by
      have := Rat.mul_nonneg (show (0 : Rat) ≤ sc - 1 by grind) hi0
      grind
    rw [e, rabs_mul, rabs_pos hi0]
    have := Rat.mul_nonneg (rabs_nonneg (a : Rat)) (show (0 : Rat) ≤ 1 - 1 / sc by grind)
    grind
  generalize hX : F.rnd (F.rnd a * F.rnd (1 / F.rnd sc)) = x at hq
  generalize hQ : (a : Rat) / sc = q at hq hqa
  have hl := lrint_close x
  generalize lrint x = L at hl
  have hq' := rabs_le.1 hq
  have hqa' := rabs_le.1 hqa
  have hl' := rabs_le.1 hl
  have hL1 : L < 2 ^ 31 - 2 ^ 16 := by
    have : (L : Rat) < ((2 ^ 31 - 2 ^ 16 : Int) : Rat) := by
      have e : ((2 ^ 31 - 2 ^ 16 : Int) : Rat) = 2147418112 := rfl
      grind
    exact Rat.intCast_lt_intCast.1 this
  have hL2 : -(2 ^ 31 - 2 ^ 16) < L := by
    have : ((-(2 ^ 31 - 2 ^ 16) : Int) : Rat) < L := by
      have e : ((-(2 ^ 31 - 2 ^ 16) : Int) : Rat) = -2147418112 := rfl
      grind
    exact Rat.intCast_lt_intCast.1 this
  rw [i32_ok (by omega), Res.bind_ok, i32_ok (by omega), Res.bind_ok]
  refine ⟨_, rfl, by omega, ?_, ?_⟩
  · rw [hQ]
    have e : (((min (max (L + bias) 0) t).toNat : Nat) : Rat) = max 0 (min ((L : Rat) + bias) t) := by
      have : (((min (max (L + bias) 0) t).toNat : Nat) : Int) = max 0 (min (L + bias) t) := by omega
      rw [← Rat.intCast_natCast, this, ← Rat.intCast_natCast t]
      have mx : ∀ a b : Int, ((max a b : Int) : Rat) = max (a : Rat) b := by
        intro a b
        by_cases c : a ≤ b
        · have := Rat.intCast_le_intCast.2 c
          rw [Int.max_eq_right c]
          grind
        · have := Rat.intCast_le_intCast.2 (show b ≤ a by omega)
          rw [Int.max_eq_left (by omega)]
          grind
      have mn : ∀ a b : Int, ((min a b : Int) : Rat) = min (a : Rat) b := by
        intro a b
        by_cases c : a ≤ b
        · have := Rat.intCast_le_intCast.2 c
          rw [Int.min_eq_left c]
          grind
        · have := Rat.intCast_le_intCast.2 (show b ≤ a by omega)
          rw [Int.min_eq_right (by omega)]
          grind
      rw [mx, mn, Rat.intCast_add]
      rfl
    rw [e]
    have h1 := clamp_lip ((L : Rat) + bias) (q + bias) t
    rw [show (L : Rat) + bias - (q + bias) = (L - x) + (x - q) by grind] at h1
    have h2 := rabs_add ((L : Rat) - x) (x - q)
    grind
  · intro z hz
    have hqz : q = z := by
      rw [← hQ, hz]
      push_cast
      grind
    subst hqz
    by_cases c1 : z.natAbs ≤ 2 ^ 17
    · have hzr : rabs (z : Rat) ≤ 2 ^ 17 := by
        rw [rabs_int]
        have : ((z.natAbs : Int) : Rat) ≤ ((2 ^ 17 : Int) : Rat) := Rat.intCast_le_intCast.2 (by omega)
        have e : ((2 ^ 17 : Int) : Rat) = 2 ^ 17 := rfl
        grind
      have h1 := Rat.intCast_lt_intCast.1 (show (L : Rat) < ((z + 1 : Int) : Rat) by push_cast; grind)
      have h2 := Rat.intCast_lt_intCast.1 (show (z : Rat) < ((L + 1 : Int) : Rat) by push_cast; grind)
      have : L = z := by omega
      subst this
      omega
    · by_cases c2 : 0 ≤ z
      · have hz0 := Rat.intCast_le_intCast.2 (show 2 ^ 17 ≤ z by omega)
        have e : ((2 ^ 17 : Int) : Rat) = 2 ^ 17 := rfl
        rw [rabs_pos (show (0 : Rat) ≤ z by grind)] at hq'
        have h1 := Rat.intCast_lt_intCast.1 (show ((2 ^ 16 : Int) : Rat) < L by
          have e : ((2 ^ 16 : Int) : Rat) = 2 ^ 16 := rfl
          grind)
        omega
      · have hz0 := Rat.intCast_le_intCast.2 (show z ≤ -2 ^ 17 by omega)
        have e : ((-2 ^ 17 : Int) : Rat) = -2 ^ 17 := rfl
        have er : rabs (z : Rat) = -z := by unfold rabs; grind
        rw [er] at hq'
        have h1 := Rat.intCast_lt_intCast.1 (show (L : Rat) < ((-2 ^ 16 : Int) : Rat) by
          have e : ((-2 ^ 16 : Int) : Rat) = -2 ^ 16 := rfl
          grind)
        omega

end VS.Average
