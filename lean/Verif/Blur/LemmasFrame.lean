import Verif.Blur.LemmasPlane

/-! # Frames -/

namespace VS.Blur
open VS VS.Format VS.Map VS.Map.Spec VS.Pix VS.Pix.Spec VS.Point VS.Point.Spec VS.Blur.Spec

/-! ## Integer samples -/

/-- One pass over integers. -/
def intP (r w : Nat) (p : Nat) (s : Nat → Nat) (x : Nat) : Nat := (boxSum r w s x + roundOf p (2 * r)) / (2 * r + 1)

theorem intP_eq (r w p : Nat) (s : Nat → Nat) (x : Nat) : intP r w p s x = boxRow r (p % 2 = 0) w s x := by
  unfold intP boxRow roundOf
  by_cases h : p % 2 = 1
  · rw [if_pos h, if_neg (by simp; omega)]
  · rw [if_neg h, if_pos (by simp; omega)]

theorem iter_boxes {n r w : Nat} (hw : 0 < w) {s : Nat → Nat} (h : ∀ x, s x < 256 ^ n) : ∀ k x, iterP n (intP r w) k s x = boxes r w k s x
  | 0, _ => rfl
  | k + 1, x => by
    show intP r w k (iterP n (intP r w) k s) x % 256 ^ n = boxRow r _ w _ x
    have e : iterP n (intP r w) k s = boxes r w k s := funext (iter_boxes hw h k)
    have hp : 0 < 256 ^ n := Nat.pow_pos (by decide)
    rw [intP_eq, e, Nat.mod_eq_of_lt]
    have : boxRow r (decide (k % 2 = 0)) w (boxes r w k s) x ≤ 256 ^ n - 1 := boxRow_le hw (fun x hx => by
      rw [← iter_boxes hw h k]
      have := iterP_lt (P := intP r w) h k x
      omega) x
    omega

theorem le_word {n v : Nat} (hn : n = 1 ∨ n = 2) (h : v < 256 ^ n) : v ≤ 65535 := by
  rcases hn with rfl | rfl
  · omega
  · omega

/-- Integer planes. -/
theorem int_plane {n stride w h radius passes : Nat} (hn : n = 1 ∨ n = 2) (hs : w * n ≤ stride) (hw : 0 < w) (hwr : w + radius ≤ 2 ^ 31)
    (hr : radius ≤ 30000) (hp : 0 < passes) {src : Buf} (hsrc : src.size = stride * h) {dst : Buf} (hd : dst.size = stride * h) :
    (∃ b, processPlane (intAcc radius) n stride w h passes radius src dst = .ok b ∧ b.size = dst.size ∧
      ∀ x y k, x < w → y < h → k < n → b.byte (y * stride + x * n + k) = leByte (boxes radius w passes (cell n (y * stride) src) x) k) ∧
    (radius = 1 → 3 ≤ w → ∃ b, processPlaneR1 intAcc1 n stride w h passes src dst = .ok b ∧ b.size = dst.size ∧
      ∀ x y k, x < w → y < h → k < n → b.byte (y * stride + x * n + k) = leByte (boxes radius w passes (cell n (y * stride) src) x) k) := by
  have hcl : ∀ b y x, cell n y b x < 256 ^ n := fun b y x => leVal_lt _ _
  have hfit : ∀ {y : Nat}, y < h → y * stride + w * n ≤ src.size := by
    intro y hy
    have := row_le (s := stride) hy
    omega
  have hro : ∀ p, roundOf p (2 * radius) ≤ 2 * radius := fun p => by unfold roundOf; split <;> omega
  have hfin : ∀ (b : Buf), (∀ x y k, x < w → y < h → k < n → b.byte (y * stride + x * n + k) =
      leByte (intP radius w (passes - 1) (iterP n (intP radius w) (passes - 1) (cell n (y * stride) src)) x) k) →
      ∀ x y k, x < w → y < h → k < n → b.byte (y * stride + x * n + k) = leByte (boxes radius w passes (cell n (y * stride) src) x) k := by
    intro b hb x y k hx hy hk
    rw [hb x y k hx hy hk, intP_eq, funext (iter_boxes (r := radius) hw (hcl src (y * stride)) (passes - 1))]
    obtain ⟨q, rfl⟩ : ∃ q, passes = q + 1 := ⟨passes - 1, by omega⟩
    rfl
  constructor
  · obtain ⟨b, e, e1, e2⟩ := plane_loop (K0 := fun y b => blurH (intAcc radius) (rowRd n (y * stride) src) n (y * stride) w radius (radius * 2) b)
      (K1 := fun p y b => blurInplace (intAcc radius) n (y * stride) w radius (roundOf p (radius * 2)) (min (radius + 1) w) b)
      (P := intP radius w) (S := fun y => cell n (y * stride) src) (passes := passes) hs (fun y x => hcl _ _ _)
      (by
        intro y b hy hb
        have hle : ∀ x, x < w → cell n (y * stride) src x ≤ 65535 := fun x _ => le_word hn (hcl _ _ _)
        obtain ⟨b', f0, f1, f2⟩ := blurH_ok (intAcc radius) (round := radius * 2) hw hwr (fun x hx => rowRd_ok (hfit hy) hx) hb
          (int_scale hr (hle 0 hw))
        refine ⟨b', f0, f1, fun x hx => ?_⟩
        have := f2 x hx
        rw [int_out hw hr hle hx (by omega)] at this
        rw [show radius * 2 = roundOf 0 (2 * radius) by unfold roundOf; rw [if_neg (by decide)]; omega] at this
        exact this)
      (by
        intro p y b s hy hb hs' hc
        have hle : ∀ x, x < w → s x ≤ 65535 := fun x _ => le_word hn (hs' x)
        obtain ⟨b', f0, f1, f2⟩ := blurInplace_ok (intAcc radius) (round := roundOf p (radius * 2)) hw hwr hc hb (int_scale hr (hle 0 hw))
        refine ⟨b', f0, f1, fun x hx => ?_⟩
        have := f2 x hx
        rw [Nat.mul_comm radius 2, int_out hw hr hle hx (hro p)] at this
        exact this) hd
    exact ⟨b, e, e1, hfin b e2⟩
  · rintro rfl hw3
    obtain ⟨b, e, e1, e2⟩ := plane_loop (K0 := fun y b => blurR1 intAcc1 (fun _ => rowRd n (y * stride) src) n (y * stride) w 2 b)
      (K1 := fun p y b => blurR1 intAcc1 (rowRd n (y * stride)) n (y * stride) w (roundOf p 2) b)
      (P := intP 1 w) (S := fun y => cell n (y * stride) src) (passes := passes) hs (fun y x => hcl _ _ _)
      (by
        intro y b hy hb
        have hle : ∀ x, x < w → cell n (y * stride) src x ≤ 65535 := fun x _ => le_word hn (hcl _ _ _)
        obtain ⟨b', f0, f1, f2⟩ := blurR1_ok intAcc1 (R := fun _ => rowRd n (y * stride) src) (s := cell n (y * stride) src) (round := 2) hw3
          (fun _ _ _ _ x _ hx => rowRd_ok (hfit hy) hx) hb rfl
        refine ⟨b', f0, f1, fun x hx => ?_⟩
        have := f2 x hx
        rw [int_out1 hw hle hx (by omega)] at this
        exact this)
      (by
        intro p y b s hy hb hs' hc
        have hle : ∀ x, x < w → s x ≤ 65535 := fun x _ => le_word hn (hs' x)
        obtain ⟨b', f0, f1, f2⟩ := blurR1_ok intAcc1 (R := rowRd n (y * stride)) (s := s) (round := roundOf p 2) hw3
          (fun b' m o t x hx hxw => by rw [rowRd_ok (by rw [o.1]; exact hb) hxw, t x hx, hc x hxw]) hb rfl
        refine ⟨b', f0, f1, fun x hx => ?_⟩
        have := f2 x hx
        rw [int_out1 hw hle hx (hro p)] at this
        exact this) hd
    exact ⟨b, e, e1, hfin b e2⟩

/-! ## Float samples -/

variable (F : Floats)

theorem float_run {k : Kind} {r w : Nat} {s : Nat → Nat} {a : F.A}
    (ha : a = if r = 1 ∧ 3 ≤ w then F.scale 2 (F.load k (s 0)) else runStart F k r w s r) : ∀ x,
    F.add (preOf (floatAcc F k r) a s w r x) (F.load k (s (min (x + r) (w - 1)))) = run F k r w s x
  | 0 => by
    show F.add a (F.load k (s (min (0 + r) (w - 1)))) = F.add _ _
    rw [ha, Nat.zero_add]
  | x + 1 => by
    have ih := float_run ha x
    exact congrArg (fun q : F.A => F.add (F.sub q (F.load k (s (x - r)))) (F.load k (s (min (x + 1 + r) (w - 1))))) ih

theorem float_start {k : Kind} {r w : Nat} {s : Nat → Nat} : ∀ i,
    startOf (floatAcc F k r) (F.scale r (F.load k (s 0))) s w i = runStart F k r w s i
  | 0 => rfl
  | i + 1 => congrArg (fun q : F.A => F.add q (F.load k (s (min i (w - 1))))) (float_start i)

/-- One pass over float samples. -/
def floatP (k : Kind) (r w : Nat) (_ : Nat) (s : Nat → Nat) (x : Nat) : Nat := F.out k r (run F k r w s x)

theorem iter_runs {k : Kind} {r w : Nat} {s : Nat → Nat} : ∀ i, iterP k.bytes (floatP F k r w) i s = runs F k r w i s
  | 0 => rfl
  | i + 1 => by
    show (fun x => floatP F k r w i (iterP k.bytes (floatP F k r w) i s) x % 256 ^ k.bytes) = _
    rw [iter_runs i]
    rfl

/-- Float planes. -/
theorem float_plane {k : Kind} {stride w h radius passes : Nat} (hs : w * k.bytes ≤ stride) (hw : 0 < w) (hwr : w + radius ≤ 2 ^ 31)
    {src : Buf} (hsrc : src.size = stride * h) {dst : Buf} (hd : dst.size = stride * h) :
    (¬ (radius = 1 ∧ 3 ≤ w) → ∃ b, processPlane (floatAcc F k radius) k.bytes stride w h passes radius src dst = .ok b ∧ b.size = dst.size ∧
      ∀ x y i, x < w → y < h → i < k.bytes → b.byte (y * stride + x * k.bytes + i) =
        leByte (F.out k radius (run F k radius w (runs F k radius w (passes - 1) (cell k.bytes (y * stride) src)) x)) i) ∧
    (radius = 1 → 3 ≤ w → ∃ b, processPlaneR1 (floatAcc F k 1) k.bytes stride w h passes src dst = .ok b ∧ b.size = dst.size ∧
      ∀ x y i, x < w → y < h → i < k.bytes → b.byte (y * stride + x * k.bytes + i) =
        leByte (F.out k radius (run F k radius w (runs F k radius w (passes - 1) (cell k.bytes (y * stride) src)) x)) i) := by
  have hcl : ∀ b y x, cell k.bytes y b x < 256 ^ k.bytes := fun b y x => leVal_lt _ _
  have hfit : ∀ {y : Nat}, y < h → y * stride + w * k.bytes ≤ src.size := by
    intro y hy
    have := row_le (s := stride) hy
    omega
  constructor
  · intro hno
    have hout : ∀ (s : Nat → Nat) round x, outOf (floatAcc F k radius) (startOf (floatAcc F k radius) (F.scale radius (F.load k (s 0))) s w radius) s w
        radius round x = F.out k radius (run F k radius w s x) := by
      intro s round x
      exact congrArg (F.out k radius) (float_run F (by rw [if_neg hno]; exact float_start F radius) x)
    obtain ⟨b, e, e1, e2⟩ := plane_loop
      (K0 := fun y b => blurH (floatAcc F k radius) (rowRd k.bytes (y * stride) src) k.bytes (y * stride) w radius (radius * 2) b)
      (K1 := fun p y b => blurInplace (floatAcc F k radius) k.bytes (y * stride) w radius (roundOf p (radius * 2)) (min (radius + 1) w) b)
      (P := floatP F k radius w) (S := fun y => cell k.bytes (y * stride) src) (passes := passes) hs (fun y x => hcl _ _ _)
      (by
        intro y b hy hb
        obtain ⟨b', f0, f1, f2⟩ := blurH_ok (floatAcc F k radius) (round := radius * 2) hw hwr (fun x hx => rowRd_ok (hfit hy) hx) hb rfl
        refine ⟨b', f0, f1, fun x hx => ?_⟩
        have := f2 x hx
        rw [hout] at this
        exact this)
      (by
        intro p y b s hy hb hs' hc
        obtain ⟨b', f0, f1, f2⟩ := blurInplace_ok (floatAcc F k radius) (round := roundOf p (radius * 2)) hw hwr hc hb rfl
        refine ⟨b', f0, f1, fun x hx => ?_⟩
        have := f2 x hx
        rw [hout] at this
        exact this) hd
    refine ⟨b, e, e1, fun x y i hx hy hi => ?_⟩
    rw [e2 x y i hx hy hi, iter_runs]
    rfl
  · rintro rfl hw3
    have hout : ∀ (s : Nat → Nat) round x, outOf (floatAcc F k 1) (F.scale 2 (F.load k (s 0))) s w 1 round x = F.out k 1 (run F k 1 w s x) := by
      intro s round x
      exact congrArg (F.out k 1) (float_run F (by rw [if_pos ⟨rfl, hw3⟩]) x)
    obtain ⟨b, e, e1, e2⟩ := plane_loop (K0 := fun y b => blurR1 (floatAcc F k 1) (fun _ => rowRd k.bytes (y * stride) src) k.bytes (y * stride) w 2 b)
      (K1 := fun p y b => blurR1 (floatAcc F k 1) (rowRd k.bytes (y * stride)) k.bytes (y * stride) w (roundOf p 2) b)
      (P := floatP F k 1 w) (S := fun y => cell k.bytes (y * stride) src) (passes := passes) hs (fun y x => hcl _ _ _)
      (by
        intro y b hy hb
        obtain ⟨b', f0, f1, f2⟩ := blurR1_ok (floatAcc F k 1) (R := fun _ => rowRd k.bytes (y * stride) src) (s := cell k.bytes (y * stride) src)
          (round := 2) hw3 (fun _ _ _ _ x _ hx => rowRd_ok (hfit hy) hx) hb rfl
        refine ⟨b', f0, f1, fun x hx => ?_⟩
        have := f2 x hx
        rw [hout] at this
        exact this)
      (by
        intro p y b s hy hb hs' hc
        obtain ⟨b', f0, f1, f2⟩ := blurR1_ok (floatAcc F k 1) (R := rowRd k.bytes (y * stride)) (s := s) (round := roundOf p 2) hw3
          (fun b' m o t x hx hxw => by rw [rowRd_ok (by rw [o.1]; exact hb) hxw, t x hx, hc x hxw]) hb rfl
        refine ⟨b', f0, f1, fun x hx => ?_⟩
        have := f2 x hx
        rw [hout] at this
        exact this) hd
    refine ⟨b, e, e1, fun x y i hx hy hi => ?_⟩
    rw [e2 x y i hx hy hi, iter_runs]
    rfl

/-! ## Frames -/

theorem blurKind_ok {f : VFmt} (h : isValidVideoStruct f = true) (hw : Workable f) :
    (blurKind f).bytes = bps f ∧ KindOk f (blurKind f) := by
  obtain ⟨k, e1, e2, e3⟩ := kind_ok h hw
  have hb : (f.bytesPerSample.toNat : Int) = f.bytesPerSample ∨ f.bytesPerSample.toNat = 0 := by omega
  have n1 : (stFloat : Int) ≠ stInteger := by decide
  have : blurKind f = k := by
    unfold blurKind
    cases k with
    | byte =>
      have := e3.2.2
      unfold bps at this
      rw [if_pos (by omega)]
    | word =>
      have := e3.2.2.2
      unfold bps at this
      rw [if_neg (by omega), if_pos ⟨e3.1, by omega⟩]
    | single =>
      have := e3.2.2
      unfold bps at this
      rw [if_neg (by omega), if_neg (by omega), if_neg (by omega)]
    | half =>
      have := e3.2.2
      unfold bps at this
      rw [if_neg (by omega), if_neg (by rw [e3.1]; exact fun c => n1 c.1), if_pos (by omega)]
  rw [this]
  exact ⟨e2, e3⟩

theorem run_congr {k : Kind} {r w : Nat} {s s' : Nat → Nat} (hw : 0 < w) (h : ∀ x, x < w → s x = s' x) :
    ∀ x, x < w → run F k r w s x = run F k r w s' x := by
  have hst : ∀ i, runStart F k r w s i = runStart F k r w s' i := by
    intro i
    induction i with
    | zero => unfold runStart; rw [h 0 hw]
    | succ i ih => unfold runStart; rw [ih, h _ (by omega)]
  intro x hx
  induction x with
  | zero =>
    unfold VS.Blur.Spec.run
    rw [hst, h 0 hw, h _ (by omega)]
  | succ x ih =>
    unfold VS.Blur.Spec.run
    rw [ih (by omega), h (x - r) (by omega), h (min (x + 1 + r) (w - 1)) (by omega)]

theorem runs_congr {k : Kind} {r w : Nat} {s s' : Nat → Nat} (hw : 0 < w) (h : ∀ x, x < w → s x = s' x) :
    ∀ n x, x < w → runs F k r w n s x = runs F k r w n s' x
  | 0, x, hx => h x hx
  | n + 1, x, hx => by
    unfold runs
    rw [run_congr F hw (runs_congr hw h n) x hx]

/-- Only the samples of the row matter. -/
theorem fn_congr {f : VFmt} {r n w : Nat} {s s' : Nat → Nat} (hw : 0 < w) (h : ∀ x, x < w → s x = s' x) {x : Nat} (hx : x < w) :
    rowFn F f r n w s x = rowFn F f r n w s' x := by
  unfold rowFn
  split
  · unfold floatFn
    split
    · exact runs_congr F hw h n x hx
    · exact h x hx
  · exact boxes_congr hw h n x hx

theorem boxes_zero {w n : Nat} {s : Nat → Nat} : ∀ {x : Nat}, x < w → boxes 0 w n s x = s x := by
  induction n with
  | zero => exact fun _ => rfl
  | succ n ih =>
    intro x hx
    show boxRow 0 _ w _ x = _
    unfold boxRow boxSum
    show (0 + boxes 0 w n s (min (x + 0 - 0) (w - 1)) + (if _ then 2 * 0 else 0)) / (2 * 0 + 1) = _
    rw [show min (x + 0 - 0) (w - 1) = x by omega, ih hx]
    split <;> simp

/-- Nothing to do. -/
theorem fn_zero {f : VFmt} {r n w : Nat} {s : Nat → Nat} (h : ¬ (0 < r ∧ 0 < n)) {x : Nat} (hx : x < w) : rowFn F f r n w s x = s x := by
  unfold rowFn
  by_cases hr : 0 < r
  · have : n = 0 := by omega
    subst this
    split
    · unfold floatFn; rw [if_pos hr]; rfl
    · rfl
  · have : r = 0 := by omega
    subst this
    split
    · unfold floatFn; rw [if_neg hr]
    · exact boxes_zero hx

/-- The plane. -/
theorem blurPlane_ok {al : Nat} (ha : 0 < al) {src : Frm} (v : Valid al src) (hwk : Workable src.fmt) {radius passes : Nat}
    (hr0 : 0 < radius) (hr : radius ≤ 30000) (hp : 0 < passes) (hwr : src.w 0 + radius ≤ 2 ^ 31) {b : Buf}
    (hb : b.size = src.stride al 0 * src.h 0) :
    ∃ G : Nat → Nat → Nat, (∃ b', blurPlane F al radius passes src b = .ok b' ∧ b'.size = b.size ∧ ∀ x y k, x < src.w 0 → y < src.h 0 →
      k < bps src.fmt → b'.byte (y * src.stride al 0 + x * bps src.fmt + k) = leByte (G x y) k) ∧
      ∀ x y, x < src.w 0 → y < src.h 0 →
        G x y % 256 ^ bps src.fmt = rowFn F src.fmt radius passes (src.w 0) (fun x => smp al src 0 x y) x := by
  obtain ⟨s, e1, e2, e3⟩ := v.plane_ok (p := 0) (by have := v.ok.planes; omega)
  obtain ⟨kb, ko⟩ := blurKind_ok v.fmt hwk
  have hw0 : 0 < src.w 0 := Nat.div_pos (Nat.le_of_dvd v.width (dvd_ssw v.modW 0)) (Nat.two_pow_pos _)
  have hst := stride_ge ha src 0
  have hcell : ∀ y, cell (bps src.fmt) (y * src.stride al 0) s = fun x => smp al src 0 x y := by
    intro y
    funext x
    rw [smp_eq e1]
    rfl
  have n1 : (stFloat : Int) ≠ stInteger := by decide
  obtain ⟨q, hq⟩ : ∃ q, passes = q + 1 := ⟨passes - 1, by omega⟩
  unfold blurPlane
  rw [e2, Res.bind_ok]
  dsimp only
  generalize hk : blurKind src.fmt = k at *
  -- integers
  have intCase : (bps src.fmt = 1 ∨ bps src.fmt = 2) → src.fmt.sampleType = stInteger → ¬ (k = .half ∨ k = .single) →
      ∃ G : Nat → Nat → Nat, (∃ b', (if radius = 1 ∧ src.w 0 ≥ 3 then
        processPlaneR1 (if k = .half ∨ k = .single then floatAcc F k 1 else intAcc1) k.bytes (src.stride al 0) (src.w 0) (src.h 0) passes s b
        else processPlane (if k = .half ∨ k = .single then floatAcc F k radius else intAcc radius) k.bytes (src.stride al 0) (src.w 0) (src.h 0)
          passes radius s b) = .ok b' ∧ b'.size = b.size ∧ ∀ x y i, x < src.w 0 → y < src.h 0 →
        i < bps src.fmt → b'.byte (y * src.stride al 0 + x * bps src.fmt + i) = leByte (G x y) i) ∧
      ∀ x y, x < src.w 0 → y < src.h 0 →
        G x y % 256 ^ bps src.fmt = rowFn F src.fmt radius passes (src.w 0) (fun x => smp al src 0 x y) x := by
    intro hn ht hnf
    rw [if_neg hnf, if_neg hnf, kb]
    obtain ⟨p1, p2⟩ := int_plane (passes := passes) hn hst hw0 hwr hr hp e3 hb
    refine ⟨fun x y => boxes radius (src.w 0) passes (fun x => smp al src 0 x y) x, ?_, ?_⟩
    · simp only [← hcell]
      split
      · rename_i c
        exact p2 c.1 c.2
      · exact p1
    · intro x y hx hy
      have : rowFn F src.fmt radius passes = intFn radius passes := by
        unfold rowFn
        rw [if_neg (by rw [ht]; exact fun c => n1 c.symm)]
      rw [this]
      have h1 : boxes radius (src.w 0) passes (fun x => smp al src 0 x y) x ≤ 256 ^ bps src.fmt - 1 := boxes_le hw0 (fun x _ => by
        have := smp_lt (al := al) src 0 x y
        omega) passes x hx
      have : 0 < 256 ^ bps src.fmt := Nat.pow_pos (by decide)
      exact Nat.mod_eq_of_lt (show boxes radius (src.w 0) passes (fun x => smp al src 0 x y) x < _ by omega)
  -- float numbers
  have floatCase : src.fmt.sampleType = stFloat → k = (if src.fmt.bitsPerSample = 32 then .single else .half) → (k = .half ∨ k = .single) →
      ∃ G : Nat → Nat → Nat, (∃ b', (if radius = 1 ∧ src.w 0 ≥ 3 then
        processPlaneR1 (if k = .half ∨ k = .single then floatAcc F k 1 else intAcc1) k.bytes (src.stride al 0) (src.w 0) (src.h 0) passes s b
        else processPlane (if k = .half ∨ k = .single then floatAcc F k radius else intAcc radius) k.bytes (src.stride al 0) (src.w 0) (src.h 0)
          passes radius s b) = .ok b' ∧ b'.size = b.size ∧ ∀ x y i, x < src.w 0 → y < src.h 0 →
        i < bps src.fmt → b'.byte (y * src.stride al 0 + x * bps src.fmt + i) = leByte (G x y) i) ∧
      ∀ x y, x < src.w 0 → y < src.h 0 →
        G x y % 256 ^ bps src.fmt = rowFn F src.fmt radius passes (src.w 0) (fun x => smp al src 0 x y) x := by
    intro ht hke hf
    rw [if_pos hf, if_pos hf]
    obtain ⟨p1, p2⟩ := float_plane F (k := k) (passes := passes) (by rw [kb]; exact hst) hw0 hwr e3 hb
    rw [kb] at p1 p2
    simp only [hcell] at p1 p2
    refine ⟨fun x y => F.out k radius (run F k radius (src.w 0) (runs F k radius (src.w 0) (passes - 1) (fun x => smp al src 0 x y)) x), ?_, ?_⟩
    · rw [kb]
      split
      · rename_i c
        exact p2 c.1 c.2
      · rename_i c
        exact p1 c
    · intro x y hx hy
      unfold rowFn
      rw [if_pos ht, ← hke]
      unfold floatFn
      rw [if_pos hr0, hq, ← kb]
      rfl
  cases k with
  | byte => exact intCase (Or.inl ko.2.2) ko.1 (by simp)
  | word => exact intCase (Or.inr ko.2.2.2) ko.1 (by simp)
  | single => exact floatCase ko.1 (by rw [if_pos ko.2.1]) (by simp)
  | half => exact floatCase ko.1 (by rw [if_neg (by rw [ko.2.1]; decide)]) (by simp)

/-- A frame with a single plane. -/
theorem blurFrame_ok {al : Nat} (ha : 0 < al) {src : Frm} (v : Valid al src) (hwk : Workable src.fmt) (h1 : src.fmt.numPlanes = 1)
    {radius passes : Nat} (hr0 : 0 < radius) (hr : radius ≤ 30000) (hp : 0 < passes) (hwr : src.width + radius ≤ 2 ^ 31) (junk : Junk) :
    ∃ g, blurFrame F al radius passes src junk = .ok g ∧ Valid al g ∧ g.fmt = src.fmt ∧ g.width = src.width ∧ g.height = src.height ∧
      g.props = src.props ∧ ∀ x y, x < g.width → y < g.height →
        smp al g 0 x y = rowFn F src.fmt radius passes src.width (fun x => smp al src 0 x y) x := by
  have ew : ∀ f : Frm, f.w 0 = f.width := fun f => by unfold Frm.w ssw; simp
  have eh : ∀ f : Frm, f.h 0 = f.height := fun f => by unfold Frm.h ssh; simp
  unfold blurFrame
  obtain ⟨G, -, hG⟩ := blurPlane_ok F ha v hwk hr0 hr hp (by rw [ew]; exact hwr) (b := ⟨src.stride al 0 * src.h 0, fun _ => 0⟩) rfl
  have key : ∀ b : Buf, b.size = src.stride al 0 * src.h 0 → ∃ b', blurPlane F al radius passes src b = .ok b' ∧ b'.size = b.size ∧
      ∀ x y, x < src.w 0 → y < src.h 0 → leVal (bps src.fmt) (fun k => b'.byte (y * src.stride al 0 + x * bps src.fmt + k)) =
        rowFn F src.fmt radius passes (src.w 0) (fun x => smp al src 0 x y) x ∧
        ∀ k, k < bps src.fmt → b'.byte (y * src.stride al 0 + x * bps src.fmt + k) =
          leByte (rowFn F src.fmt radius passes (src.w 0) (fun x => smp al src 0 x y) x) k := by
    intro b hb
    obtain ⟨G, ⟨b', e, e1, e2⟩, hG⟩ := blurPlane_ok F ha v hwk hr0 hr hp (by rw [ew]; exact hwr) hb
    refine ⟨b', e, e1, fun x y hx hy => ?_⟩
    have h1 : ∀ k, k < bps src.fmt → b'.byte (y * src.stride al 0 + x * bps src.fmt + k) =
        leByte (rowFn F src.fmt radius passes (src.w 0) (fun x => smp al src 0 x y) x) k := by
      intro k hk
      rw [e2 x y k hx hy hk, ← hG x y hx hy]
      unfold leByte
      have : 256 ^ bps src.fmt = 256 ^ k * (256 * 256 ^ (bps src.fmt - k - 1)) := by
        rw [← Nat.mul_assoc, ← Nat.pow_succ, ← Nat.pow_add]
        congr 1
        omega
      rw [this, Nat.mod_mul_right_div_self, Nat.mod_mul_right_mod]
    refine ⟨?_, h1⟩
    rw [leVal_congr h1, leVal_bytes, ← hG x y hx hy, Nat.mod_mod]
  rw [ew, eh]
  obtain ⟨g, e, vg, g1, g2, g3, g4, g5⟩ := makeNew_ok (al := al) v.geo src.props junk
    (fun _ p b => if p = 0 then blurPlane F al radius passes src b else .ok b)
    (fun _ x y => rowFn F src.fmt radius passes (src.w 0) (fun x => smp al src 0 x y) x) (by
      intro dst d1 d2 d3 p b hpl hb
      have hp0 : p = 0 := by omega
      subst hp0
      have hs : dst.stride al 0 = src.stride al 0 := stride_eq d1 d2 0
      have hh : dst.h 0 = src.h 0 := h_eq d1 d3 0
      have hw : dst.w 0 = src.w 0 := w_eq d1 d2 0
      rw [hs, hh] at hb
      obtain ⟨b', f0, f1, f2⟩ := key b hb
      refine ⟨b', by rw [if_pos rfl]; exact f0, f1, ?_⟩
      intro x y k hx hy hk
      rw [hs]
      exact (f2 x y (by omega) (by omega)).2 k hk)
  refine ⟨g, e, vg, g1, g2, g3, g4, ?_⟩
  intro x y hx hy
  have hxs : x < src.w 0 := by rw [ew, ← g2]; exact hx
  have hys : y < src.h 0 := by rw [eh, ← g3]; exact hy
  rw [g5 0 x y (by omega) (by rw [ew]; exact hx) (by rw [eh]; exact hy)]
  rw [← hG x y hxs hys, Nat.mod_mod, hG x y hxs hys, ew]

end VS.Blur
