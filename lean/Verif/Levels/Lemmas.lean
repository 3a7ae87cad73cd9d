import Verif.Levels.Spec
import Verif.Generic.ConvArgs

/-! # One element of the table of Levels -/

namespace VS.Levels
open VS VS.Format VS.Map VS.Map.Spec VS.Pix VS.Pix.Spec VS.Point VS.Point.Spec VS.Pixel VS.Pixel.Spec VS.Generic VS.Generic.Spec VS.Levels.Spec

variable (F : LFloats)

theorem rnd_int_close (F : Generic.Floats) (a : Int) : rabs (F.rnd a - a) ≤ rabs (a : Rat) / 2 ^ 23 := by
  by_cases h0 : a = 0
  · rw [F.rnd_int a (by omega), Rat.sub_self, h0, rabs_zero]
    have e : ((0 : Int) : Rat) = 0 := rfl
    rw [e, rabs_zero]
    grind
  · have h1 := F.rnd_close a
    have h2 : 1 ≤ rabs (a : Rat) := by
      rw [rabs_int]
      have := Rat.intCast_le_intCast.2 (show (1 : Int) ≤ (a.natAbs : Int) by omega)
      have e : ((1 : Int) : Rat) = 1 := rfl
      grind
    grind

theorem rabs_pos {q : Rat} (h : 0 ≤ q) : rabs q = q := by
  unfold rabs
  grind

/-- The quotient of rounded numbers. -/
theorem quot_close {n N a d u : Rat} (hN : 1 ≤ N) (hn : 0 ≤ n) (ha : rabs (a - n) ≤ n / 2 ^ 23) (hd : rabs (d - N) ≤ N / 2 ^ 23)
    (hu : u * d = a) {q : Rat} (hq : q * N = n) : 0 ≤ q ∧ rabs (u - q) ≤ q / 2 ^ 22 * (1 + 1 / 2 ^ 20) := by
  have hq0 : 0 ≤ q := by
    refine Rat.not_lt.1 fun hc => ?_
    have := Rat.mul_pos (show 0 < -q by grind) (show 0 < N by grind)
    grind
  refine ⟨hq0, ?_⟩
  have hd' := rabs_le.1 hd
  have h1 : rabs (u - q) * rabs d ≤ n / 2 ^ 22 := by
    rw [← rabs_mul]
    have e : (u - q) * d = (a - n) + -(q * (d - N)) := by grind
    have h2 := rabs_add (a - n) (-(q * (d - N)))
    rw [← e] at h2
    have h3 : rabs (-(q * (d - N))) = q * rabs (d - N) := by
      have : rabs (-(q * (d - N))) = rabs (q * (d - N)) := by unfold rabs; grind
      rw [this, rabs_mul, rabs_pos hq0]
    have h4 : rabs (d - N) * q ≤ N / 2 ^ 23 * q := Rat.mul_le_mul_of_nonneg_right hd hq0
    have h5 : N / 2 ^ 23 * q = n / 2 ^ 23 := by grind
    grind
  rw [rabs_pos (show 0 ≤ d by grind)] at h1
  have hw := rabs_nonneg (u - q)
  generalize rabs (u - q) = w at *
  refine Rat.not_lt.1 fun hc => ?_
  have h2 : (N - N / 2 ^ 23) * w ≤ d * w := Rat.mul_le_mul_of_nonneg_right (by grind) hw
  have h3 := Rat.mul_pos (show 0 < w - q / 2 ^ 22 * (1 + 1 / 2 ^ 20) by grind) (show 0 < N by grind)
  have h4 : (w - q / 2 ^ 22 * (1 + 1 / 2 ^ 20)) * N = w * N - n / 2 ^ 22 * (1 + 1 / 2 ^ 20) := by grind
  rw [h4] at h3
  have h5 : (N - N / 2 ^ 23) * w = w * N * (1 - 1 / 2 ^ 23) := by grind
  rw [h5] at h2
  have h6 : d * w = w * d := by grind
  generalize w * N = X at *
  grind

/-- The final conversion. -/
theorem cast_close (F : Generic.Floats) {z : Rat} {t : Nat} (ht : t ≤ 65535) (h0 : 0 ≤ z) (hz : z ≤ t) :
    (F.rnd (z + 1 / 2)).floor.toNat ≤ t ∧ rabs (((F.rnd (z + 1 / 2)).floor.toNat : Rat) - z) ≤ 1 / 2 + 1 / 2 ^ 7 - 1 / 2 ^ 140 := by
  have ht' : (t : Rat) ≤ 65535 := by exact_mod_cast ht
  have h1 := F.rnd_close (z + 1 / 2)
  rw [rabs_pos (show 0 ≤ z + 1 / 2 by grind)] at h1
  have h1 := rabs_le.1 h1
  have h2 := Rat.floor_le (F.rnd (z + 1 / 2))
  have h3 := Rat.lt_floor_add_one (F.rnd (z + 1 / 2))
  push_cast at h3
  have e0 : ((0 : Int) : Rat) = 0 := rfl
  have h4 : 0 ≤ (F.rnd (z + 1 / 2)).floor := Rat.le_floor_iff.2 (by grind)
  have h5 : (F.rnd (z + 1 / 2)).floor < t + 1 := by
    refine Rat.floor_lt_iff.2 ?_
    push_cast
    grind
  have e : (((F.rnd (z + 1 / 2)).floor.toNat : Nat) : Rat) = ((F.rnd (z + 1 / 2)).floor : Rat) := by
    rw [← Rat.intCast_natCast, Int.toNat_of_nonneg h4]
  refine ⟨by omega, ?_⟩
  rw [e, rabs_le]
  grind

theorem cast_int (F : Generic.Floats) {z : Int} (h0 : 0 ≤ z) (hz : z ≤ 65535) : (F.rnd ((z : Rat) + 1 / 2)).floor = z := by
  have h0' := Rat.intCast_le_intCast.2 h0
  have hz' := Rat.intCast_le_intCast.2 hz
  have e0 : ((0 : Int) : Rat) = 0 := rfl
  have e1 : ((65535 : Int) : Rat) = 65535 := rfl
  have h1 := F.rnd_close (z + 1 / 2)
  rw [rabs_pos (show 0 ≤ (z : Rat) + 1 / 2 by grind)] at h1
  have h1 := rabs_le.1 h1
  have h2 : z ≤ (F.rnd ((z : Rat) + 1 / 2)).floor := Rat.le_floor_iff.2 (by grind)
  have h3 : (F.rnd ((z : Rat) + 1 / 2)).floor < z + 1 := by
    refine Rat.floor_lt_iff.2 ?_
    push_cast
    grind
  omega

theorem clamp_int (z : Int) (t : Nat) : max (min (z : Rat) t) 0 = ((max 0 (min z t) : Int) : Rat) := by
  have e0 : ((0 : Int) : Rat) = 0 := rfl
  have ht : (t : Rat) = ((t : Int) : Rat) := (Rat.intCast_natCast t).symm
  have h0 := Rat.intCast_le_intCast.2 (show (0 : Int) ≤ t by omega)
  rw [ht]
  by_cases c1 : z ≤ 0
  · have := Rat.intCast_le_intCast.2 c1
    rw [show max 0 (min z (t : Int)) = 0 by omega]
    grind
  · by_cases c2 : z ≤ t
    · have := Rat.intCast_le_intCast.2 c2
      have := Rat.intCast_le_intCast.2 (show 0 ≤ z by omega)
      rw [show max 0 (min z (t : Int)) = z by omega]
      grind
    · have := Rat.intCast_le_intCast.2 (show (t : Int) ≤ z by omega)
      rw [show max 0 (min z (t : Int)) = t by omega]
      grind

theorem rnd_bound (F : Generic.Floats) {z : Int} (h : rabs (z : Rat) < 2 ^ 127) : rabs (F.rnd z) < 2 ^ 128 := by
  have h1 := rnd_int_close F z
  have h2 := rabs_add (F.rnd z - z) z
  rw [show F.rnd (z : Rat) - z + z = F.rnd z by grind] at h2
  have := rabs_nonneg (z : Rat)
  grind

theorem add_errors {g rm mt qeb qpb pe e p b : Rat} (hm : qpb ≤ (p + b) / 2 ^ 22 + 1 / 2 ^ 147) (hc : rm ≤ 1 / 2 + 1 / 2 ^ 7 - 1 / 2 ^ 140)
    (hp : pe ≤ e / 2 ^ 23) (h1 : mt ≤ qeb) (h2 : g ≤ rm + mt) (h3 : qeb ≤ qpb + pe) (h4 : p ≤ pe + e) (he : 0 ≤ e) (hb : 0 ≤ b) :
    g ≤ 1 / 2 + (e + b) / 2 ^ 20 + 1 / 2 ^ 7 := by
  grind

theorem levEntry_ok {t : Nat} (ht : t ≤ 65535) {r : Rounded} (hr : r.Ok) (gamma : Rat) (v : Nat) :
    ∃ e, levEntry F t r.minIn r.maxIn r.minOut r.maxOut (inverse F.toFloats gamma) v = .ok e ∧ LevelsValue F t r gamma v e := by
  obtain ⟨hr1, hr2, hr3⟩ := hr
  unfold levEntry
  dsimp only
  rw [if_pos (rnd_bound _ hr2), if_pos (rnd_bound _ hr3)]
  refine ⟨_, rfl, ?_⟩
  -- the numerator
  have hN : (1 : Rat) ≤ ((r.maxIn - r.minIn : Int) : Rat) := by
    have := Rat.intCast_le_intCast.2 (show (1 : Int) ≤ r.maxIn - r.minIn by omega)
    have e : ((1 : Int) : Rat) = 1 := rfl
    grind
  have hn0 : (0 : Rat) ≤ ((max (min (v : Int) r.maxIn) r.minIn - r.minIn : Int) : Rat) := by
    have := Rat.intCast_le_intCast.2 (show (0 : Int) ≤ max (min (v : Int) r.maxIn) r.minIn - r.minIn by omega)
    have e : ((0 : Int) : Rat) = 0 := rfl
    grind
  have ha : rabs (max (F.rnd ((min (v : Int) r.maxIn - r.minIn : Int) : Rat)) 0 - ((max (min (v : Int) r.maxIn) r.minIn - r.minIn : Int) : Rat)) ≤
      ((max (min (v : Int) r.maxIn) r.minIn - r.minIn : Int) : Rat) / 2 ^ 23 := by
    have h1 := rnd_int_close F.toFloats (min (v : Int) r.maxIn - r.minIn)
    by_cases c : r.minIn ≤ v
    · rw [show max (min (v : Int) r.maxIn) r.minIn = min (v : Int) r.maxIn by omega] at hn0 ⊢
      rw [rabs_pos hn0] at h1
      generalize F.rnd ((min (v : Int) r.maxIn - r.minIn : Int) : Rat) = A at *
      generalize ((min (v : Int) r.maxIn - r.minIn : Int) : Rat) = n at *
      have h1 := rabs_le.1 h1
      rw [rabs_le]
      grind
    · rw [show max (min (v : Int) r.maxIn) r.minIn - r.minIn = 0 by omega]
      have hneg := Rat.intCast_le_intCast.2 (show min (v : Int) r.maxIn - r.minIn ≤ 0 by omega)
      have e0 : ((0 : Int) : Rat) = 0 := rfl
      rw [e0] at hneg ⊢
      generalize F.rnd ((min (v : Int) r.maxIn - r.minIn : Int) : Rat) = A at *
      generalize ((min (v : Int) r.maxIn - r.minIn : Int) : Rat) = n at *
      have e1 : rabs n = -n := by unfold rabs; grind
      rw [e1] at h1
      have h1 := rabs_le.1 h1
      rw [rabs_le]
      grind
  have hd := rnd_int_close F.toFloats (r.maxIn - r.minIn)
  rw [rabs_pos (show 0 ≤ ((r.maxIn - r.minIn : Int) : Rat) by grind)] at hd
  have hdpos : F.rnd ((r.maxIn - r.minIn : Int) : Rat) ≠ 0 := by
    have := rabs_le.1 hd
    grind
  obtain ⟨hq0, hqc⟩ := quot_close hN hn0 ha hd (u := max (F.rnd ((min (v : Int) r.maxIn - r.minIn : Int) : Rat)) 0 /
    F.rnd ((r.maxIn - r.minIn : Int) : Rat)) (by grind) (q := ratio r v) (by unfold ratio; grind)
  -- the quotient
  have hx := F.rnd_close (max (F.rnd ((min (v : Int) r.maxIn - r.minIn : Int) : Rat)) 0 / F.rnd ((r.maxIn - r.minIn : Int) : Rat))
  have hxr : rabs (F.rnd (max (F.rnd ((min (v : Int) r.maxIn - r.minIn : Int) : Rat)) 0 / F.rnd ((r.maxIn - r.minIn : Int) : Rat)) - ratio r v) ≤
      ratio r v / 2 ^ 21 + 1 / 2 ^ 100 := by
    generalize max (F.rnd ((min (v : Int) r.maxIn - r.minIn : Int) : Rat)) 0 / F.rnd ((r.maxIn - r.minIn : Int) : Rat) = u at *
    generalize ratio r v = q at *
    have h1 := rabs_add (F.rnd u - u) (u - q)
    rw [show F.rnd u - u + (u - q) = F.rnd u - q by grind] at h1
    have h2 := rabs_add (u - q) q
    rw [show u - q + q = u by grind, rabs_pos hq0] at h2
    grind
  have hdo := rnd_int_close F.toFloats (r.maxOut - r.minOut)
  refine ⟨(cast_close F.toFloats ht (by grind) (by
      have : (0 : Rat) ≤ t := by exact_mod_cast Nat.zero_le t
      grind)).1, ⟨_, _, hxr, ?_, rfl, ?_⟩, ?_⟩
  · rintro rfl
    have : inverse F.toFloats 1 = some 1 := by
      unfold inverse
      have e : F.rnd (1 / 1) = 1 := by
        rw [show (1 : Rat) / 1 = ((1 : Int) : Rat) by grind]
        exact F.rnd_int 1 (by decide)
      rw [e, if_pos (by decide +kernel)]
    rw [this, F.pow_id]
  · generalize F.rnd (max (F.rnd ((min (v : Int) r.maxIn - r.minIn : Int) : Rat)) 0 / F.rnd ((r.maxIn - r.minIn : Int) : Rat)) = x at *
    generalize F.pow x (inverse F.toFloats gamma) = y at *
    have hm := F.muladd_close y (F.rnd ((r.maxOut - r.minOut : Int) : Rat)) r.minOut
    have ht0 : (0 : Rat) ≤ t := by exact_mod_cast Nat.zero_le t
    obtain ⟨_, hc⟩ := cast_close F.toFloats (z := max (min (F.muladd y (F.rnd ((r.maxOut - r.minOut : Int) : Rat)) r.minOut) t) 0) ht (by grind)
      (by grind)
    generalize F.muladd y (F.rnd ((r.maxOut - r.minOut : Int) : Rat)) r.minOut = q at *
    generalize ((F.rnd (max (min q (t : Rat)) 0 + 1 / 2)).floor.toNat : Rat) = res at *
    have hp : rabs (y * F.rnd ((r.maxOut - r.minOut : Int) : Rat) - y * ((r.maxOut - r.minOut : Int) : Rat)) ≤
        rabs (y * ((r.maxOut - r.minOut : Int) : Rat)) / 2 ^ 23 := by
      rw [show y * F.rnd ((r.maxOut - r.minOut : Int) : Rat) - y * ((r.maxOut - r.minOut : Int) : Rat) =
        (F.rnd ((r.maxOut - r.minOut : Int) : Rat) - ((r.maxOut - r.minOut : Int) : Rat)) * y by grind, rabs_mul, rabs_mul]
      have := Rat.mul_le_mul_of_nonneg_right hdo (rabs_nonneg y)
      grind
    generalize y * F.rnd ((r.maxOut - r.minOut : Int) : Rat) = P at *
    generalize y * ((r.maxOut - r.minOut : Int) : Rat) = E at *
    generalize (r.minOut : Rat) = b at *
    have h1 := clamp_lip q (E + b) t
    rw [show max 0 (min q (t : Rat)) = max (min q (t : Rat)) 0 by grind] at h1
    have h2 := rabs_add (res - max (min q (t : Rat)) 0) (max (min q (t : Rat)) 0 - max 0 (min (E + b) t))
    rw [show res - max (min q (t : Rat)) 0 + (max (min q (t : Rat)) 0 - max 0 (min (E + b) (t : Rat))) = res - max 0 (min (E + b) t) by grind] at h2
    have h3 := rabs_add (q - (P + b)) (P - E)
    rw [show q - (P + b) + (P - E) = q - (E + b) by grind] at h3
    have h4 := rabs_add (P - E) E
    rw [show P - E + E = P by grind] at h4
    exact add_errors hm hc hp h1 h2 h3 h4 (rabs_nonneg E) (rabs_nonneg b)
  · intro hmn hmx
    have hdout : F.rnd ((r.maxOut - r.minOut : Int) : Rat) = ((r.maxOut - r.minOut : Int) : Rat) := F.rnd_int _ (by omega)
    have fin : ∀ z : Int, ((F.rnd (max (min (z : Rat) t) 0 + 1 / 2)).floor.toNat : Int) = max 0 (min z t) := by
      intro z
      rw [clamp_int, cast_int F.toFloats (by omega) (by omega)]
      omega
    constructor
    · intro hv
      have e1 : max (F.rnd ((min (v : Int) r.maxIn - r.minIn : Int) : Rat)) 0 = 0 := by
        rw [show max (min (v : Int) r.maxIn) r.minIn - r.minIn = 0 by omega] at ha
        have e0 : ((0 : Int) : Rat) = 0 := rfl
        rw [e0] at ha
        have := rabs_le.1 ha
        grind
      have e2 : F.rnd (0 : Rat) = 0 := F.rnd_int 0 (by decide)
      have e3 := F.muladd_int 0 (r.maxOut - r.minOut) r.minOut (by simp) (by rw [Int.zero_mul]; omega)
      have e0 : ((0 : Int) : Rat) = 0 := rfl
      rw [e0] at e3
      rw [e1, hdout, show (0 : Rat) / F.rnd ((r.maxIn - r.minIn : Int) : Rat) = 0 by grind, e2, F.pow_zero, e3, fin]
      omega
    · intro hv
      have e1 : max (F.rnd ((min (v : Int) r.maxIn - r.minIn : Int) : Rat)) 0 = F.rnd ((r.maxIn - r.minIn : Int) : Rat) := by
        rw [show min (v : Int) r.maxIn = r.maxIn by omega]
        have := rabs_le.1 hd
        grind
      have e2 : F.rnd (1 : Rat) = 1 := F.rnd_int 1 (by decide)
      have e3 := F.muladd_int 1 (r.maxOut - r.minOut) r.minOut (by rw [Int.one_mul]; omega) (by rw [Int.one_mul]; omega)
      have e0 : ((1 : Int) : Rat) = 1 := rfl
      rw [e0] at e3
      rw [e1, hdout, show F.rnd ((r.maxIn - r.minIn : Int) : Rat) / F.rnd ((r.maxIn - r.minIn : Int) : Rat) = 1 by grind, e2, F.pow_one, e3, fin]
      omega

end VS.Levels
