import Verif.Text.LemmasLines
import Verif.Point.LemmasClip

/-! # Drawing of one character -/

namespace VS.Text
open VS VS.Format VS.Map VS.Map.Spec VS.Pix VS.Pix.Spec VS.Point VS.Point.Spec

/-- A plane of `W` × `H` samples of `n` bytes contains the picture `S`. -/
def Holds (n stride W H : Nat) (b : Buf) (S : Nat → Nat → Nat) : Prop :=
  b.size = stride * H ∧ ∀ x y, x < W → y < H → leVal n (fun k => b.byte (y * stride + x * n + k)) = S x y

/-- A picture with a rectangle on it. -/
def rect (X Y w h : Nat) (G : Nat → Nat → Nat) (S : Nat → Nat → Nat) : Nat → Nat → Nat :=
  fun x y => if X ≤ x ∧ x < X + w ∧ Y ≤ y ∧ y < Y + h then G (x - X) (y - Y) else S x y

theorem holds_congr {n stride W H : Nat} {b : Buf} {S T : Nat → Nat → Nat} (h : Holds n stride W H b S)
    (e : ∀ x y, x < W → y < H → S x y = T x y) : Holds n stride W H b T :=
  ⟨h.1, fun x y hx hy => (h.2 x y hx hy).trans (e x y hx hy)⟩

theorem wr_holds {n stride W H : Nat} (hs : W * n ≤ stride) {b : Buf} {S : Nat → Nat → Nat} (h : Holds n stride W H b S)
    {x0 y0 v : Nat} (hx : x0 < W) (hy : y0 < H) (hv : v < 256 ^ n) :
    ∃ b', wr b n (y0 * stride + x0 * n : Nat) v = .ok b' ∧
      Holds n stride W H b' (fun x y => if x = x0 ∧ y = y0 then v else S x y) := by
  obtain ⟨b', f0, f1, f2, f3⟩ := wr_ok (b := b) (n := n) (off := y0 * stride + x0 * n) v
    (by rw [h.1]; exact cell_fit hs hy hx)
  refine ⟨b', f0, f1.trans h.1, ?_⟩
  intro x y hx' hy'
  beta_reduce
  by_cases e : x = x0 ∧ y = y0
  · rw [if_pos e, e.1, e.2, leVal_congr (fun k hk => f2 k hk), leVal_bytes, Nat.mod_eq_of_lt hv]
  · rw [if_neg e, ← h.2 x y hx' hy']
    refine leVal_congr (fun k hk => f3 _ ?_)
    have := cell_disj (y := y) (y' := y0) (x := x) (x' := x0) hs hx' hx (by omega)
    omega

theorem memset_holds {n stride W H : Nat} (hs : W * n ≤ stride) {b : Buf} {S : Nat → Nat → Nat}
    (h : Holds n stride W H b S) {x0 y0 v w : Nat} (hx : x0 + w ≤ W) (hy : y0 < H) (hv : v < 256 ^ n) :
    ∃ b', memset b ((y0 * stride + x0 * n : Nat) : Int) n v w = .ok b' ∧
      Holds n stride W H b' (rect x0 y0 w 1 (fun _ _ => v) S) := by
  have a1 : (x0 + w) * n ≤ W * n := Nat.mul_le_mul_right n hx
  rw [Nat.add_mul] at a1
  have a2 : y0 * stride + stride ≤ stride * H := row_le hy
  obtain ⟨b', f0, f1, f2, f3⟩ := memset_ok b (y0 * stride + x0 * n) n v w (by rw [h.1]; omega)
  refine ⟨b', f0, f1.trans h.1, ?_⟩
  intro x y hx' hy'
  unfold rect
  by_cases e : x0 ≤ x ∧ x < x0 + w ∧ y0 ≤ y ∧ y < y0 + 1
  · rw [if_pos e]
    have ey : y = y0 := by omega
    subst ey
    have : leVal n (fun k => b'.byte (y * stride + x * n + k)) = leVal n (fun k => leByte v k) := by
      refine leVal_congr (fun k hk => ?_)
      have e1 : x * n = x0 * n + (x - x0) * n := by rw [← Nat.add_mul]; congr 1; omega
      have e2 : (x - x0 + 1) * n ≤ w * n := Nat.mul_le_mul_right n (by omega)
      rw [Nat.add_mul, Nat.one_mul] at e2
      have e3 : y * stride + x * n + k = y * stride + x0 * n + ((x - x0) * n + k) := by omega
      rw [e3, f2 _ (by omega)]
      congr 1
      rw [Nat.add_comm, Nat.add_mul_mod_self_right, Nat.mod_eq_of_lt hk]
    rw [this, leVal_bytes, Nat.mod_eq_of_lt hv]
  · rw [if_neg e, ← h.2 x y hx' hy']
    refine leVal_congr (fun k hk => f3 _ ?_)
    have b1 : (x + 1) * n ≤ W * n := Nat.mul_le_mul_right n (by omega)
    rw [Nat.add_mul, Nat.one_mul] at b1
    by_cases ey : y = y0
    · subst ey
      have : x < x0 ∨ x0 + w ≤ x := by omega
      rcases this with g | g
      · have := Nat.mul_le_mul_right n (show x + 1 ≤ x0 by omega)
        rw [Nat.add_mul, Nat.one_mul] at this
        omega
      · have := Nat.mul_le_mul_right n g
        rw [Nat.add_mul] at this
        omega
    · rcases Nat.lt_or_gt_of_ne ey with g | g
      · have := Nat.mul_le_mul_right stride (show y + 1 ≤ y0 by omega)
        rw [Nat.add_mul, Nat.one_mul] at this
        omega
      · have := Nat.mul_le_mul_right stride (show y0 + 1 ≤ y by omega)
        rw [Nat.add_mul, Nat.one_mul] at this
        omega

/-- `n * (a * stride / n + b)`. -/
theorem offset_eq {n stride : Nat} (hn : 0 < n) (h : n ∣ stride) (a b : Nat) :
    (n : Int) * (((a : Int) * stride).tdiv n + b) = ((a * stride + b * n : Nat) : Int) := by
  obtain ⟨k, rfl⟩ := h
  have e : ((a : Int) * ((n * k : Nat) : Int)).tdiv (n : Int) = ((a * k : Nat) : Int) := by
    rw [← Int.natCast_mul, ← Int.ofNat_tdiv, show a * (n * k) = a * k * n by rw [Nat.mul_comm n k, Nat.mul_assoc],
      Nat.mul_div_cancel _ hn]
  rw [e, ← Int.natCast_add, ← Int.natCast_mul]
  congr 1
  rw [Nat.mul_add, Nat.mul_comm n b]
  congr 1
  rw [Nat.mul_left_comm]

/-- A character: white and black. -/
def glyphPx (font : Nat → Nat) (f : VFmt) (c s : Nat) : Nat → Nat → Nat :=
  fun u v => if Spec.ink font c (u / s) (v / s) then white f else black f

theorem fontBit_ok (font : Nat → Nat) {c row col : Nat} (hc : c < 251) (hr : row < 16) (hl : col < 8) :
    fontBit font c row col = .ok (Spec.ink font c col row) := by
  unfold fontBit fontSize Spec.ink
  rw [if_pos (by omega), Nat.testBit_eq_decide_div_mod_eq]
  congr 1

theorem in_range {a b : Nat} {m : Int} (h : a < b) (hm : (b : Int) ≤ INT_MAX) (e : m = a) : InI32 m := by
  unfold InI32 INT_MIN INT_MAX at *
  omega

theorem scrawl_ok (font : Nat → Nat) {f : VFmt} {stride W H X Y s c : Nat} (hn : 0 < charBytes f)
    (hd : charBytes f ∣ stride) (hst : W * charBytes f ≤ stride) (hW : (W : Int) ≤ INT_MAX) (hH : (H : Int) ≤ INT_MAX)
    (hX : X + 8 * s ≤ W) (hY : Y + 16 * s ≤ H) (hc : c < 251)
    (hwh : white f < 256 ^ charBytes f) (hbl : black f < 256 ^ charBytes f) {b : Buf} {S : Nat → Nat → Nat}
    (h : Holds (charBytes f) stride W H b S) :
    ∃ b', scrawlChar font f c stride X Y s b = .ok b' ∧
      Holds (charBytes f) stride W H b' (rect X Y (8 * s) (16 * s) (glyphPx font f c s) S) := by
  have outer := forN_spec (fun y b => do
      let dy ← i32 ((Y : Int) + y)
      forN (fun x b => do
        let bit ← fontBit font c (y / s) (x / s)
        let dx ← i32 ((X : Int) + x)
        wr b (charBytes f) (charBytes f * ((dy * stride).tdiv (charBytes f) + dx)) (if bit then white f else black f))
        (8 * s) b)
    (fun y b => Holds (charBytes f) stride W H b (rect X Y (8 * s) y (glyphPx font f c s) S)) (16 * s) b
    (holds_congr h (fun x y _ _ => by unfold rect; rw [if_neg (by omega)]))
    (by
      intro y b1 hy h1
      have inner := forN_spec (fun x b => do
          let bit ← fontBit font c (y / s) (x / s)
          let dx ← i32 ((X : Int) + x)
          wr b (charBytes f) (charBytes f * ((((Y : Int) + y) * stride).tdiv (charBytes f) + dx)) (if bit then white f else black f))
        (fun m b => Holds (charBytes f) stride W H b (fun x' y' => if X ≤ x' ∧ x' < X + m ∧ y' = Y + y then
            glyphPx font f c s (x' - X) y else rect X Y (8 * s) y (glyphPx font f c s) S x' y')) (8 * s) b1
        (holds_congr h1 (fun x y _ _ => by rw [if_neg (by omega)]))
        (by
          intro m b2 hm h2
          obtain ⟨b', g1, g2⟩ := wr_holds hst h2 (x0 := X + m) (y0 := Y + y)
            (v := glyphPx font f c s m y) (by omega) (by omega) (by unfold glyphPx; split <;> assumption)
          refine ⟨b', ?_, holds_congr g2 ?_⟩
          · show (fontBit font c (y / s) (m / s) >>= fun bit => i32 ((X : Int) + m) >>= fun dx => _) = _
            rw [fontBit_ok font hc (Nat.div_lt_of_lt_mul (by rw [Nat.mul_comm]; exact hy)) (Nat.div_lt_of_lt_mul (by rw [Nat.mul_comm]; exact hm)),
              Res.bind_ok,
              i32_ok (in_range (a := X + m) (b := W) (by omega) hW (by omega)), Res.bind_ok, ← Int.natCast_add, ← Int.natCast_add,
              offset_eq hn hd]
            exact g1
          · intro x' y' _ _
            by_cases e : x' = X + m ∧ y' = Y + y
            · rw [if_pos e, if_pos (by omega), show x' - X = m by omega]
            · rw [if_neg e]
              by_cases e2 : X ≤ x' ∧ x' < X + m ∧ y' = Y + y
              · rw [if_pos e2, if_pos (by omega)]
              · rw [if_neg e2, if_neg (by omega)])
      obtain ⟨b', g1, g2⟩ := inner
      refine ⟨b', ?_, holds_congr g2 ?_⟩
      · show (i32 ((Y : Int) + y) >>= fun dy => _) = _
        rw [i32_ok (in_range (a := Y + y) (b := H) (by omega) hH (by omega)), Res.bind_ok]
        exact g1
      · intro x' y' _ _
        unfold rect
        by_cases e : X ≤ x' ∧ x' < X + 8 * s ∧ y' = Y + y
        · rw [if_pos e, if_pos (by omega), show y' - Y = y by omega]
        · rw [if_neg e]
          by_cases e2 : X ≤ x' ∧ x' < X + 8 * s ∧ Y ≤ y' ∧ y' < Y + y
          · rw [if_pos e2, if_pos (by omega)]
          · rw [if_neg e2, if_neg (by omega)])
  exact outer

theorem clear_ok {f : VFmt} {stride W H X Y s : Nat} (hn : 0 < clearBytes f)
    (hd : clearBytes f ∣ stride) (hst : W * clearBytes f ≤ stride) (hH : (H : Int) ≤ INT_MAX) (hs : s ≤ 65536)
    (hX : X / 2 ^ f.subSamplingW.toNat + 8 * s / 2 ^ f.subSamplingW.toNat ≤ W)
    (hY : Y / 2 ^ f.subSamplingH.toNat + 16 * s / 2 ^ f.subSamplingH.toNat ≤ H)
    (hv : neutral f < 256 ^ clearBytes f) {b : Buf} {S : Nat → Nat → Nat} (h : Holds (clearBytes f) stride W H b S) :
    ∃ b', clearChroma f stride X Y s b = .ok b' ∧
      Holds (clearBytes f) stride W H b' (rect (X / 2 ^ f.subSamplingW.toNat) (Y / 2 ^ f.subSamplingH.toNat)
        (8 * s / 2 ^ f.subSamplingW.toNat) (16 * s / 2 ^ f.subSamplingH.toNat) (fun _ _ => neutral f) S) := by
  unfold clearChroma
  rw [i32_ok (in_range (a := s * 8) (b := 65536 * 8 + 1) (by omega) (by decide) (by omega)), Res.bind_ok,
    i32_ok (in_range (a := s * 16) (b := 65536 * 16 + 1) (by omega) (by decide) (by omega)), Res.bind_ok]
  have c1 : ((s : Int) * 8 / 2 ^ f.subSamplingW.toNat).toNat = 8 * s / 2 ^ f.subSamplingW.toNat := by
    have : (s : Int) * 8 / 2 ^ f.subSamplingW.toNat = ((8 * s / 2 ^ f.subSamplingW.toNat : Nat) : Int) := by
      push_cast; rw [Int.mul_comm]
    rw [this, Int.toNat_natCast]
  have c2 : ((s : Int) * 16 / 2 ^ f.subSamplingH.toNat).toNat = 16 * s / 2 ^ f.subSamplingH.toNat := by
    have : (s : Int) * 16 / 2 ^ f.subSamplingH.toNat = ((16 * s / 2 ^ f.subSamplingH.toNat : Nat) : Int) := by
      push_cast; rw [Int.mul_comm]
    rw [this, Int.toNat_natCast]
  have c3 : (X : Int) / 2 ^ f.subSamplingW.toNat = ((X / 2 ^ f.subSamplingW.toNat : Nat) : Int) := by push_cast; rfl
  have c4 : (Y : Int) / 2 ^ f.subSamplingH.toNat = ((Y / 2 ^ f.subSamplingH.toNat : Nat) : Int) := by push_cast; rfl
  simp only
  rw [c1, c2, c3, c4]
  generalize X / 2 ^ f.subSamplingW.toNat = X' at *
  generalize Y / 2 ^ f.subSamplingH.toNat = Y' at *
  generalize 8 * s / 2 ^ f.subSamplingW.toNat = w' at *
  generalize 16 * s / 2 ^ f.subSamplingH.toNat = h' at *
  refine forN_spec _ (fun y b => Holds (clearBytes f) stride W H b (rect X' Y' w' y (fun _ _ => neutral f) S)) h' b
    (holds_congr h (fun x y _ _ => by unfold rect; rw [if_neg (by omega)])) ?_
  intro y b1 hy h1
  obtain ⟨b', g1, g2⟩ := memset_holds hst h1 (x0 := X') (y0 := y + Y') (w := w') hX (by omega) hv
  refine ⟨b', ?_, holds_congr g2 ?_⟩
  · show (i32 ((y : Int) + Y') >>= fun dy => _) = _
    rw [i32_ok (in_range (a := y + Y') (b := H) (by omega) hH (by omega)), Res.bind_ok, ← Int.natCast_add, offset_eq hn hd]
    exact g1
  · intro x' y' _ _
    unfold rect
    by_cases e : X' ≤ x' ∧ x' < X' + w' ∧ y + Y' ≤ y' ∧ y' < y + Y' + 1
    · rw [if_pos e, if_pos (by omega)]
    · rw [if_neg e]
      by_cases e2 : X' ≤ x' ∧ x' < X' + w' ∧ Y' ≤ y' ∧ y' < Y' + y
      · rw [if_pos e2, if_pos (by omega)]
      · rw [if_neg e2, if_neg (by omega)]

end VS.Text
