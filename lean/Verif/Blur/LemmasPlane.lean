import Verif.Blur.LemmasRow
import Verif.Blur.LemmasDiv
import Verif.Blur.Spec
import Verif.Point.LemmasClip

/-! # Planes and frames -/

namespace VS.Blur
open VS VS.Format VS.Map VS.Map.Spec VS.Pix VS.Pix.Spec VS.Point VS.Point.Spec VS.Blur.Spec

/-! ## Sums -/

theorem sumTo_le {f : Nat → Nat} {M : Nat} : ∀ {n : Nat}, (∀ k, k < n → f k ≤ M) → sumTo f n ≤ n * M
  | 0, _ => Nat.zero_le _
  | n + 1, h => by
    have h1 := sumTo_le (f := f) (M := M) (n := n) (fun k hk => h k (by omega))
    have h2 := h n (by omega)
    show sumTo f n + f n ≤ (n + 1) * M
    rw [Nat.add_mul]
    omega

theorem sumTo_ge {f : Nat → Nat} {M : Nat} : ∀ {n : Nat}, (∀ k, k < n → M ≤ f k) → n * M ≤ sumTo f n
  | 0, _ => by rw [Nat.zero_mul]; exact Nat.zero_le _
  | n + 1, h => by
    have h1 := sumTo_ge (f := f) (M := M) (n := n) (fun k hk => h k (by omega))
    have h2 := h n (by omega)
    show (n + 1) * M ≤ sumTo f n + f n
    rw [Nat.add_mul]
    omega

theorem sumTo_const (v : Nat) : ∀ n, sumTo (fun _ => v) n = n * v
  | 0 => by rw [Nat.zero_mul]; rfl
  | n + 1 => by
    show sumTo (fun _ => v) n + v = _
    rw [sumTo_const v n, Nat.add_mul, Nat.one_mul]

theorem boxSum_le {r w M : Nat} {s : Nat → Nat} (hw : 0 < w) (h : ∀ x, x < w → s x ≤ M) (x : Nat) : boxSum r w s x ≤ (2 * r + 1) * M :=
  sumTo_le (fun k _ => h _ (by omega))

theorem boxSum_ge {r w M : Nat} {s : Nat → Nat} (hw : 0 < w) (h : ∀ x, x < w → M ≤ s x) (x : Nat) : (2 * r + 1) * M ≤ boxSum r w s x :=
  sumTo_ge (fun k _ => h _ (by omega))

/-- An average is not above the samples. -/
theorem boxRow_le {r w M : Nat} {up : Bool} {s : Nat → Nat} (hw : 0 < w) (h : ∀ x, x < w → s x ≤ M) (x : Nat) : boxRow r up w s x ≤ M := by
  have := boxSum_le (r := r) hw h x
  unfold boxRow
  apply Nat.le_of_lt_succ
  have e : (M + 1) * (2 * r + 1) = (2 * r + 1) * M + (2 * r + 1) := by rw [Nat.add_mul, Nat.one_mul, Nat.mul_comm M]
  refine (Nat.div_lt_iff_lt_mul (by omega)).2 ?_
  show _ < (M + 1) * (2 * r + 1)
  rw [e]
  split <;> omega

/-- An average is not below the samples. -/
theorem boxRow_ge {r w M : Nat} {up : Bool} {s : Nat → Nat} (hw : 0 < w) (h : ∀ x, x < w → M ≤ s x) (x : Nat) : M ≤ boxRow r up w s x := by
  have := boxSum_ge (r := r) hw h x
  unfold boxRow
  rw [Nat.le_div_iff_mul_le (by omega), Nat.mul_comm M]
  omega

theorem boxes_le {r w M : Nat} {s : Nat → Nat} (hw : 0 < w) (h : ∀ x, x < w → s x ≤ M) : ∀ n x, x < w → boxes r w n s x ≤ M
  | 0, x, hx => h x hx
  | n + 1, x, _ => boxRow_le hw (fun x hx => boxes_le hw h n x hx) x

theorem boxes_ge {r w M : Nat} {s : Nat → Nat} (hw : 0 < w) (h : ∀ x, x < w → M ≤ s x) : ∀ n x, x < w → M ≤ boxes r w n s x
  | 0, x, hx => h x hx
  | n + 1, x, _ => boxRow_ge hw (fun x hx => boxes_ge hw h n x hx) x

theorem boxSum_congr {r w : Nat} {s s' : Nat → Nat} (hw : 0 < w) (h : ∀ x, x < w → s x = s' x) (x : Nat) :
    boxSum r w s x = boxSum r w s' x := sumTo_congr (fun k _ => h _ (by omega))

theorem boxes_congr {r w : Nat} {s s' : Nat → Nat} (hw : 0 < w) (h : ∀ x, x < w → s x = s' x) : ∀ n x, x < w → boxes r w n s x = boxes r w n s' x
  | 0, x, hx => h x hx
  | n + 1, x, _ => by
    show boxRow r _ w _ x = boxRow r _ w _ x
    unfold boxRow
    rw [boxSum_congr hw (fun x hx => boxes_congr hw h n x hx)]

/-- The sum without its last sample. -/
def partSum (r w : Nat) (s : Nat → Nat) (x : Nat) : Nat := sumTo (fun k => s (min (x + k - r) (w - 1))) (2 * r)

theorem boxSum_last {r w : Nat} {s : Nat → Nat} (x : Nat) : boxSum r w s x = partSum r w s x + s (min (x + r) (w - 1)) := by
  unfold boxSum partSum
  show _ + s (min (x + 2 * r - r) (w - 1)) = _
  rw [show x + 2 * r - r = x + r by omega]

theorem boxSum_first {r w : Nat} {s : Nat → Nat} {x : Nat} (hx : x < w) : boxSum r w s x = s (x - r) + partSum r w s (x + 1) := by
  unfold boxSum partSum
  rw [Nat.add_comm (2 * r) 1, sumTo_add]
  show 0 + s (min (x + 0 - r) (w - 1)) + _ = _
  rw [Nat.zero_add, Nat.add_zero, show min (x - r) (w - 1) = x - r by omega]
  congr 1
  refine sumTo_congr (fun k _ => ?_)
  show s (min (x + (1 + k) - r) (w - 1)) = s (min (x + 1 + k - r) (w - 1))
  rw [show x + (1 + k) = x + 1 + k by omega]

theorem partSum_start {r w : Nat} {s : Nat → Nat} : partSum r w s 0 = r * s 0 + sumTo (fun k => s (min k (w - 1))) r := by
  unfold partSum
  rw [Nat.two_mul, sumTo_add]
  congr 1
  · rw [← sumTo_const]
    refine sumTo_congr (fun k hk => ?_)
    show s (min (0 + k - r) (w - 1)) = s 0
    rw [show min (0 + k - r) (w - 1) = 0 by omega]
  · refine sumTo_congr (fun k hk => ?_)
    show s (min (0 + (r + k) - r) (w - 1)) = s (min k (w - 1))
    rw [show 0 + (r + k) - r = k by omega]

/-! ## Integer rows -/

theorem int_big {r w M : Nat} {s : Nat → Nat} (hw : 0 < w) (hr : r ≤ 30000) (hM : M ≤ 65535) (h : ∀ x, x < w → s x ≤ M) (x : Nat) :
    boxSum r w s x + 2 * r < 2 ^ 32 := by
  have h1 := boxSum_le (r := r) hw h x
  have h2 : (2 * r + 1) * M ≤ 60001 * 65535 := Nat.mul_le_mul (by omega) hM
  omega

theorem slide {p v u q t : Nat} (h1 : t = p + v) (h2 : t = u + q) (h : t < 2 ^ 32) : sub32 (add32 p v) u = q := by
  unfold sub32 add32
  rw [← h1, Nat.mod_eq_of_lt h, h2, show u + q + 2 ^ 32 - u = q + 2 ^ 32 by omega, Nat.add_mod_right, Nat.mod_eq_of_lt (by omega)]

theorem preOf_succ (Q : Acc) (a : Q.A) (s : Nat → Nat) (w r x : Nat) : preOf Q a s w r (x + 1) =
    Q.sub (Q.add (preOf Q a s w r x) (Q.load (s (min (x + r) (w - 1))))) (Q.load (s (x - r))) := rfl

theorem int_pre {r R w : Nat} {s : Nat → Nat} (hw : 0 < w) (hr : r ≤ 30000) (h : ∀ x, x < w → s x ≤ 65535) {a : Nat}
    (ha : a = partSum r w s 0) (x : Nat) (hx : x ≤ w) : preOf (intAcc R) a s w r x = partSum r w s x := by
  induction x with
  | zero => exact ha
  | succ x ih =>
    have hb := int_big hw hr (Nat.le_refl _) h x
    refine (preOf_succ _ _ _ _ _ _).trans ?_
    exact (congrArg (fun q : Nat => sub32 (add32 q (s (min (x + r) (w - 1)))) (s (x - r))) (ih (by omega))).trans
      (slide (boxSum_last (r := r) x) (boxSum_first (r := r) (show x < w by omega)) (by omega))

theorem int_pre1 {w : Nat} {s : Nat → Nat} (hw : 0 < w) (h : ∀ x, x < w → s x ≤ 65535) {a : Nat}
    (ha : a = partSum 1 w s 0) (x : Nat) (hx : x ≤ w) : preOf intAcc1 a s w 1 x = partSum 1 w s x := by
  induction x with
  | zero => exact ha
  | succ x ih =>
    have hb := int_big (r := 1) hw (by omega) (Nat.le_refl _) h x
    refine (preOf_succ _ _ _ _ _ _).trans ?_
    exact (congrArg (fun q : Nat => sub32 (add32 q (s (min (x + 1) (w - 1)))) (s (x - 1))) (ih (by omega))).trans
      (slide (boxSum_last (r := 1) x) (boxSum_first (r := 1) (show x < w by omega)) (by omega))

theorem int_start {r R w : Nat} {s : Nat → Nat} (hw : 0 < w) (hr : r ≤ 30000) (h : ∀ x, x < w → s x ≤ 65535) : ∀ k, k ≤ r →
    startOf (intAcc R) (r * s 0 : Nat) s w k = r * s 0 + sumTo (fun k => s (min k (w - 1))) k
  | 0, _ => rfl
  | k + 1, hk => by
    have ih := int_start (R := R) hw hr h k (by omega)
    have h1 : sumTo (fun k => s (min k (w - 1))) (k + 1) ≤ (k + 1) * 65535 := sumTo_le (fun k _ => h _ (by omega))
    have h2 : r * s 0 ≤ 30000 * 65535 := Nat.mul_le_mul hr (h 0 hw)
    have h3 : (k + 1) * 65535 ≤ 30000 * 65535 := Nat.mul_le_mul_right _ (by omega)
    have h4 : sumTo (fun k => s (min k (w - 1))) (k + 1) = sumTo (fun k => s (min k (w - 1))) k + s (min k (w - 1)) := rfl
    refine (congrArg (fun q : Nat => add32 q (s (min k (w - 1)))) ih).trans ?_
    show @Eq Nat _ _
    unfold add32
    rw [h4] at h1 ⊢
    rw [Nat.mod_eq_of_lt (by omega)]
    omega

theorem int_scale {r R v : Nat} (hr : r ≤ 30000) (hv : v ≤ 65535) : (intAcc R).scale r v = .ok (r * v : Nat) := by
  have h2 : r * v ≤ 30000 * 65535 := Nat.mul_le_mul hr hv
  show (do
    let p ← i32 (r * v : Nat)
    .ok (p.toNat % 2 ^ 32)) = _
  rw [i32_nat (by omega), Res.bind_ok, Int.toNat_natCast, Nat.mod_eq_of_lt (by omega)]
  rfl

/-- One pass over integers. -/
theorem int_out {r w round x : Nat} {s : Nat → Nat} (hw : 0 < w) (hr : r ≤ 30000) (h : ∀ x, x < w → s x ≤ 65535) (hx : x < w)
    (hro : round ≤ 2 * r) :
    outOf (intAcc r) (startOf (intAcc r) (r * s 0 : Nat) s w r) s w r round x = (boxSum r w s x + round) / (2 * r + 1) := by
  have hb := int_big hw hr (Nat.le_refl _) h x
  have hp := int_pre (R := r) hw hr h (a := startOf (intAcc r) (r * s 0 : Nat) s w r)
    (by rw [int_start hw hr h r (Nat.le_refl _), partSum_start]) x (by omega)
  refine (congrArg (fun q : Nat => fastDiv (add32 (add32 q (s (min (x + r) (w - 1)))) round) (makeFastDiv (r * 2 + 1))) hp).trans ?_
  unfold add32
  rw [← boxSum_last, Nat.mod_eq_of_lt (show boxSum r w s x < 2 ^ 32 by omega), Nat.mod_eq_of_lt (by omega),
    fastDiv_eq (by omega) (by omega) (by omega), Nat.mul_comm r 2]

theorem int_out1 {w round x : Nat} {s : Nat → Nat} (hw : 0 < w) (h : ∀ x, x < w → s x ≤ 65535) (hx : x < w) (hro : round ≤ 2) :
    outOf intAcc1 (2 * s 0 % 2 ^ 32 : Nat) s w 1 round x = (boxSum 1 w s x + round) / (2 * 1 + 1) := by
  have hb := int_big (r := 1) hw (by omega) (Nat.le_refl _) h x
  have h0 := h 0 hw
  have hp := int_pre1 hw h (a := (2 * s 0 % 2 ^ 32 : Nat)) (by
    rw [partSum_start]
    show _ = 1 * s 0 + (0 + s (min 0 (w - 1)))
    rw [Nat.zero_min]
    omega) x (by omega)
  refine (congrArg (fun q : Nat => add32 (add32 q (s (min (x + 1) (w - 1)))) round / 3) hp).trans ?_
  unfold add32
  rw [← boxSum_last, Nat.mod_eq_of_lt (show boxSum 1 w s x < 2 ^ 32 by omega), Nat.mod_eq_of_lt (by omega)]

/-! ## Rows of a plane -/

/-- `P p s` is what pass `p` makes of the row `s`; samples have `n` bytes. -/
def iterP (n : Nat) (P : Nat → (Nat → Nat) → Nat → Nat) : Nat → (Nat → Nat) → Nat → Nat
  | 0, s => s
  | k + 1, s => fun x => P k (iterP n P k s) x % 256 ^ n

theorem iterP_lt {n : Nat} {P : Nat → (Nat → Nat) → Nat → Nat} {s : Nat → Nat} (h : ∀ x, s x < 256 ^ n) (k x : Nat) : iterP n P k s x < 256 ^ n := by
  cases k with
  | zero => exact h x
  | succ k => exact Nat.mod_lt _ (Nat.pow_pos (by decide))

theorem outside_row {n stride w y y' : Nat} (hs : w * n ≤ stride) (hy : y' ≠ y) {b b' : Buf} (h : Outside n (y * stride) w b b') {x k : Nat}
    (hx : x < w) (hk : k < n) : b'.byte (y' * stride + x * n + k) = b.byte (y' * stride + x * n + k) := by
  refine h.2 _ ?_
  have h1 := cell_end (n := n) hx
  rcases Nat.lt_or_gt_of_ne hy with c | c
  · have := cell_end (n := stride) c
    omega
  · have := cell_end (n := stride) c
    omega

/-- All rows, all passes. -/
theorem plane_loop {K0 : Nat → Buf → Res Buf} {K1 : Nat → Nat → Buf → Res Buf} {P : Nat → (Nat → Nat) → Nat → Nat}
    {S : Nat → Nat → Nat} {n stride w h passes : Nat} (hs : w * n ≤ stride) (hS : ∀ y x, S y x < 256 ^ n)
    (h0 : ∀ y b, y < h → y * stride + w * n ≤ b.size → ∃ b', K0 y b = .ok b' ∧ Outside n (y * stride) w b b' ∧
      ∀ x, x < w → Holds n (y * stride) b' x (P 0 (S y) x))
    (h1 : ∀ p y b s, y < h → y * stride + w * n ≤ b.size → (∀ x, s x < 256 ^ n) → (∀ x, x < w → cell n (y * stride) b x = s x) →
      ∃ b', K1 p y b = .ok b' ∧ Outside n (y * stride) w b b' ∧ ∀ x, x < w → Holds n (y * stride) b' x (P p s x))
    {dst : Buf} (hd : dst.size = stride * h) :
    ∃ b, forN (fun y b => do
        let b ← K0 y b
        forFrom (fun p b => K1 p y b) 1 1 (passes - 1) b) h dst = .ok b ∧ b.size = dst.size ∧
      ∀ x y k, x < w → y < h → k < n → b.byte (y * stride + x * n + k) = leByte (P (passes - 1) (iterP n P (passes - 1) (S y)) x) k := by
  have hfit : ∀ {y : Nat} {b : Buf}, y < h → b.size = dst.size → y * stride + w * n ≤ b.size := by
    intro y b hy hb
    have := row_le (s := stride) hy
    omega
  have row : ∀ (y : Nat) (b0 : Buf), y < h → b0.size = dst.size → ∃ b, (do
        let b ← K0 y b0
        forFrom (fun p b => K1 p y b) 1 1 (passes - 1) b) = .ok b ∧ Outside n (y * stride) w b0 b ∧
      ∀ x, x < w → Holds n (y * stride) b x (P (passes - 1) (iterP n P (passes - 1) (S y)) x) := by
    intro y b0 hy hb0
    obtain ⟨b1, e1, o1, c1⟩ := h0 y b0 hy (hfit hy hb0)
    rw [e1, Res.bind_ok]
    obtain ⟨b2, e2, o2, c2⟩ := forFrom_spec (fun p b => K1 p y b) 1
      (fun k b => Outside n (y * stride) w b0 b ∧ ∀ x, x < w → Holds n (y * stride) b x (P k (iterP n P k (S y)) x)) 1 (passes - 1) b1
      ⟨o1, c1⟩ (by
        rintro k b hk ⟨o, c⟩
        rw [Nat.mul_one, Nat.add_comm 1 k]
        obtain ⟨b', e, o', c'⟩ := h1 (k + 1) y b (iterP n P (k + 1) (S y)) hy (hfit hy (o.1.trans hb0)) (iterP_lt (hS y) _)
          (fun x hx => (c x hx).cell)
        exact ⟨b', e, o.trans o', c'⟩)
    exact ⟨b2, e2, o2, c2⟩
  obtain ⟨b, e, hb, hh⟩ := forN_spec _ (fun m b => b.size = dst.size ∧ ∀ x y k, y < m → x < w → y < h → k < n →
      b.byte (y * stride + x * n + k) = leByte (P (passes - 1) (iterP n P (passes - 1) (S y)) x) k) h dst
    ⟨rfl, fun x y k hy => absurd hy (Nat.not_lt_zero _)⟩ (by
      rintro m b hm ⟨f1, f2⟩
      obtain ⟨b', e, o, c⟩ := row m b hm f1
      refine ⟨b', e, o.1.trans f1, ?_⟩
      intro x y k hy hx hyh hk
      by_cases em : y = m
      · subst em
        exact c x hx k hk
      · rw [outside_row hs em o hx hk]
        exact f2 x y k (by omega) hx hyh hk)
  exact ⟨b, e, hb, fun x y k hx hy hk => hh x y k hy hx hy hk⟩

end VS.Blur
