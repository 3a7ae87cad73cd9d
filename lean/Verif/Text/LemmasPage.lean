import Verif.Text.LemmasDraw
import Mathlib.Tactic.IntervalCases

/-! # Drawing of a page -/

namespace VS.Text
open VS VS.Format VS.Map VS.Map.Spec VS.Pix VS.Pix.Spec VS.Point VS.Point.Spec

/-! ## Formats -/

/-- Bytes and values of a format. -/
structure Vals (f : VFmt) : Prop where
  char : charBytes f = bps f
  clear : clearBytes f = bps f
  white : white f = Spec.white f
  black : black f = Spec.black f
  gray : neutral f = Spec.gray f
  whiteLt : Spec.white f < 256 ^ bps f
  blackLt : Spec.black f < 256 ^ bps f
  grayLt : Spec.gray f < 256 ^ bps f

theorem vals {f : VFmt} (h : isValidVideoStruct f = true) (hw : Workable f) : Vals f := by
  obtain ⟨k, _, _, hk⟩ := kind_ok h hw
  have ne : (stFloat : Int) ≠ stInteger := by decide
  have ne' : (stInteger : Int) ≠ stFloat := by decide
  cases k with
  | byte =>
    obtain ⟨t, b, e⟩ := hk
    constructor <;> simp [charBytes, clearBytes, Text.white, Spec.white, Text.black, Spec.black, neutral, Spec.gray, t, b, e, ne']
  | word =>
    obtain ⟨t, b1, b2, e⟩ := hk
    obtain ⟨m, hm⟩ : ∃ m : Nat, f.bitsPerSample = m := ⟨f.bitsPerSample.toNat, by omega⟩
    have h1 : 9 ≤ m := by omega
    have h2 : m ≤ 16 := by omega
    interval_cases m <;>
      (constructor <;> simp [charBytes, clearBytes, Text.white, Spec.white, Text.black, Spec.black, neutral, Spec.gray, t, hm, e, ne'])
  | single =>
    obtain ⟨t, b, e⟩ := hk
    constructor <;> simp [charBytes, clearBytes, Text.white, Spec.white, Text.black, Spec.black, neutral, Spec.gray, t, b, e, ne]
  | half =>
    obtain ⟨t, b, e⟩ := hk
    constructor <;> simp [charBytes, clearBytes, Text.white, Spec.white, Text.black, Spec.black, neutral, Spec.gray, t, b, e, ne]

theorem rgb_ss {f : VFmt} (h : isValidVideoStruct f = true) (hr : f.colorFamily = cfRGB) (p : Nat) : ssw f p = 0 ∧ ssh f p = 0 := by
  have : f.subSamplingH = 0 ∧ f.subSamplingW = 0 := by
    obtain ⟨⟨_, _, d⟩, _⟩ := good_of h (by rw [hr]; decide)
    have n1 : (cfRGB : Int) ≠ cfYUV := by decide
    rw [hr] at d
    revert d
    simp [n1]
    omega
  unfold ssw ssh
  rw [this.1, this.2]
  constructor <;> split <;> rfl

theorem add_div_le (a b c : Nat) : a / c + b / c ≤ (a + b) / c := by
  rcases Nat.eq_zero_or_pos c with rfl | hc
  · simp
  · rw [Nat.le_div_iff_mul_le hc, Nat.add_mul]
    have h1 := Nat.div_mul_le_self a c
    have h2 := Nat.div_mul_le_self b c
    omega

/-! ## Characters in all planes -/

/-- A character and its upper left corner. -/
abbrev Place := Nat × Nat × Nat

/-- What a character does to plane `p`. -/
def upd (font : Nat → Nat) (f : Frm) (s p : Nat) (S : Nat → Nat → Nat) (c : Place) : Nat → Nat → Nat :=
  if f.fmt.colorFamily = cfRGB ∨ p = 0 then rect c.2.1 c.2.2 (8 * s) (16 * s) (glyphPx font f.fmt c.1 s) S
  else rect (c.2.1 / 2 ^ ssw f.fmt p) (c.2.2 / 2 ^ ssh f.fmt p) (8 * s / 2 ^ ssw f.fmt p) (16 * s / 2 ^ ssh f.fmt p)
    (fun _ _ => neutral f.fmt) S

/-- The planes contain the pictures `St`. -/
def PlanesHold (al : Nat) (f : Frm) (ps : List Buf) (St : Nat → Nat → Nat → Nat) : Prop :=
  ps.length = f.planes.length ∧
    ∀ p b, ps[p]? = some b → Holds (bps f.fmt) (f.stride al p) (f.w p) (f.h p) b (St p)

/-- A place inside of the frame. -/
def Fits (f : Frm) (s : Nat) (c : Place) : Prop :=
  c.1 < 251 ∧ c.2.1 + 8 * s ≤ f.width ∧ c.2.2 + 16 * s ≤ f.height

theorem width_le {al : Nat} {f : Frm} (h : Valid al f) : (f.width : Int) ≤ INT_MAX := by
  have h1 := h.row
  have h2 := h.ok.pos
  have : (f.width : Int) * 1 ≤ f.width * bps f.fmt := Int.mul_le_mul_of_nonneg_left (by omega) (by omega)
  omega

theorem drawChar_ok {al : Nat} (ha : AlignOk al) (font : Nat → Nat) {f : Frm} (hv : Valid al f) (hw : Workable f.fmt) {s : Nat}
    (hs : s ≤ 65536) {c : Place} (hc : Fits f s c) {ps : List Buf} {St : Nat → Nat → Nat → Nat} (h : PlanesHold al f ps St) :
    ∃ ps', drawChar al font f s c.1 c.2.1 c.2.2 ps = .ok ps' ∧ PlanesHold al f ps' (fun p => upd font f s p (St p) c) := by
  have v := vals hv.fmt hw
  have hp := hv.ok.pos
  have hww := width_le hv
  obtain ⟨c, X, Y⟩ := c
  obtain ⟨c1, c2, c3⟩ := hc
  simp only at c1 c2 c3
  have := mapPlanes_ok (fun p b =>
      if f.fmt.colorFamily = cfRGB ∨ p = 0 then scrawlChar font f.fmt c (f.stride al p) X Y s b
      else clearChroma f.fmt (f.stride al p) X Y s b)
    (fun p b => Holds (bps f.fmt) (f.stride al p) (f.w p) (f.h p) b (upd font f s p (St p) (c, X, Y))) 0 ps (by
      intro p b hb
      rw [Nat.zero_add]
      have hh := h.2 p b hb
      have hst := stride_ge (align_pos ha) f p
      have hd := bps_dvd_stride hv.ok (align_dvd ha) p
      have lw : f.w p ≤ f.width := Nat.div_le_self _ _
      have lh : f.h p ≤ f.height := Nat.div_le_self _ _
      have hrows := hv.rows
      unfold upd
      by_cases e : f.fmt.colorFamily = cfRGB ∨ p = 0
      · rw [if_pos e, if_pos e]
        have e0 : ssw f.fmt p = 0 ∧ ssh f.fmt p = 0 := by
          rcases e with e | e
          · exact rgb_ss hv.fmt e p
          · rw [e]; exact ⟨rfl, rfl⟩
        have ew : f.w p = f.width := by unfold Frm.w; rw [e0.1]; simp
        have eh : f.h p = f.height := by unfold Frm.h; rw [e0.2]; simp
        rw [← v.char] at hh hst hd ⊢
        exact scrawl_ok font (by rw [v.char]; exact hp) hd hst (by omega) (by omega) (by omega) (by omega) c1
          (by rw [v.char, v.white]; exact v.whiteLt) (by rw [v.char, v.black]; exact v.blackLt) hh
      · rw [if_neg e, if_neg e]
        have hp0 : p ≠ 0 := fun e' => e (Or.inr e')
        have e1 : ssw f.fmt p = f.fmt.subSamplingW.toNat := by unfold ssw; rw [if_neg hp0]
        have e2 : ssh f.fmt p = f.fmt.subSamplingH.toNat := by unfold ssh; rw [if_neg hp0]
        rw [← v.clear] at hh hst hd ⊢
        rw [e1, e2]
        refine clear_ok (by rw [v.clear]; exact hp) hd hst (by omega) hs ?_ ?_ (by rw [v.clear, v.gray]; exact v.grayLt) hh
        · unfold Frm.w
          rw [e1]
          exact Nat.le_trans (add_div_le _ _ _) (Nat.div_le_div_right c2)
        · unfold Frm.h
          rw [e2]
          exact Nat.le_trans (add_div_le _ _ _) (Nat.div_le_div_right c3))
  obtain ⟨ps', e, hl, hP⟩ := this
  refine ⟨ps', e, hl.trans h.1, fun p b hb => ?_⟩
  have := hP p b hb
  rw [Nat.zero_add] at this
  exact this

/-! ## Lines and pages -/

/-- The places of the characters of a line, from number `i` on. -/
def lineCells (x y s : Nat) : Nat → List Nat → List Place
  | _, [] => []
  | i, c :: t => (c, x + 8 * s * i, y) :: lineCells x y s (i + 1) t

/-- The places of all characters. -/
def pageCells (a W s : Nat) : Nat → List (List Nat) → List Place
  | _, [] => []
  | y, l :: t => lineCells (Spec.left a W s l.length) y s 0 l ++ pageCells a W s (y + 16 * s) t

theorem mem_lineCells {x y s : Nat} {i : Nat} {l : List Nat} {c : Place} :
    c ∈ lineCells x y s i l ↔ ∃ j, l[j]? = some c.1 ∧ c.2.1 = x + 8 * s * (i + j) ∧ c.2.2 = y := by
  induction l generalizing i with
  | nil => simp [lineCells]
  | cons d t ih =>
    rw [lineCells, List.mem_cons, ih]
    constructor
    · rintro (e | ⟨j, h1, h2, h3⟩)
      · exact ⟨0, by rw [e]; rfl, by rw [e]; rfl, by rw [e]⟩
      · exact ⟨j + 1, by simpa using h1, by rw [h2]; congr 2; omega, h3⟩
    · rintro ⟨j, h1, h2, h3⟩
      rcases j with _ | j
      · left
        obtain ⟨c, X, Y⟩ := c
        simp only [List.getElem?_cons_zero, Option.some.injEq, Nat.add_zero] at h1 h2 h3
        rw [h1, h2, h3]
      · right
        exact ⟨j, by simpa using h1, by rw [h2]; congr 2; omega, h3⟩

theorem mem_pageCells {a W s y : Nat} {L : List (List Nat)} {c : Place} :
    c ∈ pageCells a W s y L ↔ ∃ (i j : Nat) (line : List Nat), L[i]? = some line ∧ line[j]? = some c.1 ∧
      c.2.1 = Spec.left a W s line.length + 8 * s * j ∧ c.2.2 = y + 16 * s * i := by
  induction L generalizing y with
  | nil => simp [pageCells]
  | cons l t ih =>
    rw [pageCells, List.mem_append, ih, mem_lineCells]
    constructor
    · rintro (⟨j, h1, h2, h3⟩ | ⟨i, j, line, h0, h1, h2, h3⟩)
      · exact ⟨0, j, l, rfl, h1, by rw [h2, Nat.zero_add], by rw [h3]; simp⟩
      · exact ⟨i + 1, j, line, by simpa using h0, h1, h2, by rw [h3, Nat.mul_add, Nat.mul_one]; omega⟩
    · rintro ⟨i, j, line, h0, h1, h2, h3⟩
      rcases i with _ | i
      · left
        simp only [List.getElem?_cons_zero, Option.some.injEq] at h0
        subst h0
        exact ⟨j, h1, by rw [h2, Nat.zero_add], by rw [h3]; simp⟩
      · right
        exact ⟨i, j, line, by simpa using h0, h1, h2, by rw [h3, Nat.mul_add, Nat.mul_one]; omega⟩

theorem extent_ok {n size s W : Nat} (hs : 0 < s) (h : n * size * s ≤ W) (hW : (W : Int) ≤ INT_MAX) :
    extent n size s = .ok ((n * size * s : Nat) : Int) := by
  unfold extent
  have h1 : n * size ≤ n * size * s := Nat.le_mul_of_pos_right _ hs
  have e1 : InI32 ((n * size : Nat) : Int) := by unfold InI32 INT_MIN INT_MAX at *; omega
  rw [i32_ok e1, Res.bind_ok, ← Int.natCast_mul]
  exact i32_ok (by unfold InI32 INT_MIN INT_MAX at *; omega)

theorem drawLine_ok {al : Nat} (ha : AlignOk al) (font : Nat → Nat) {f : Frm} (hv : Valid al f) (hw : Workable f.fmt) {s : Nat}
    (hs0 : 0 < s) (hs : s ≤ 65536) {x y : Nat} {i : Nat} {l : List Nat} (hc : ∀ c ∈ lineCells x y s i l, Fits f s c)
    {ps : List Buf} {St : Nat → Nat → Nat → Nat} (h : PlanesHold al f ps St) :
    ∃ ps', drawLine (drawChar al font f s) x y s i l ps = .ok ps' ∧
      PlanesHold al f ps' (fun p => (lineCells x y s i l).foldl (upd font f s p) (St p)) := by
  induction l generalizing i ps St with
  | nil => exact ⟨ps, rfl, h⟩
  | cons c t ih =>
    have hf := hc (c, x + 8 * s * i, y) (by rw [lineCells]; exact List.mem_cons_self)
    have hx := hf.2.1
    simp only at hx
    have hww := width_le hv
    have e0 : i * 8 * s = 8 * s * i := by rw [Nat.mul_comm i 8, Nat.mul_right_comm]
    obtain ⟨ps1, e1, h1⟩ := drawChar_ok ha font hv hw hs hf h
    obtain ⟨ps2, e2, h2⟩ := ih (i := i + 1) (fun d hd => hc d (by rw [lineCells]; exact List.mem_cons_of_mem _ hd)) h1
    refine ⟨ps2, ?_, h2⟩
    rw [drawLine, extent_ok hs0 (W := f.width) (by omega) hww, Res.bind_ok, ← Int.natCast_add, e0,
      i32_ok (in_range (a := x + 8 * s * i) (b := f.width) (by omega) hww rfl), Res.bind_ok, e1, Res.bind_ok]
    exact e2

theorem startX_ok {a : Int} (h1 : 1 ≤ a) (h9 : a ≤ 9) {W len s : Nat} (hs : 0 < s) (h : 8 * s * len + 32 ≤ W)
    (hW : (W : Int) ≤ INT_MAX) : startX a W len s = .ok (Spec.left a.toNat W s len : Nat) := by
  have e0 : len * 8 * s = 8 * s * len := by rw [Nat.mul_comm len 8, Nat.mul_right_comm]
  unfold startX Spec.left
  rw [extent_ok hs (W := W) (by omega) hW, Res.bind_ok, e0]
  generalize 8 * s * len = e at *
  have d2 : ((W : Int) - (e : Int)).tdiv 2 = (((W - e) / 2 : Nat) : Int) := by
    rw [← Int.ofNat_sub (by omega)]
    exact (Int.ofNat_tdiv _ 2).symm
  obtain ⟨m, rfl⟩ : ∃ m : Nat, a = m := ⟨a.toNat, by omega⟩
  have g1 : 1 ≤ m := by omega
  have g9 : m ≤ 9 := by omega
  rw [Int.toNat_natCast]
  have bound : ∀ k : Nat, k ≤ W → i32 (k : Int) = .ok (k : Int) := fun k hk =>
    i32_ok (by unfold InI32 INT_MIN INT_MAX at *; omega)
  by_cases c1 : m % 3 = 1
  · rw [if_pos (by omega), if_pos c1]; rfl
  · rw [if_neg (by omega), if_neg c1]
    by_cases c2 : m % 3 = 2
    · rw [if_pos (by omega), if_pos c2, d2]
      rw [bound ((W - e) / 2) (by omega)]
    · rw [if_neg (by omega), if_neg c2]
      rw [show (W : Int) - (e : Int) - 16 = ((W - e - 16 : Nat) : Int) by omega]
      rw [bound (W - e - 16) (by omega)]

theorem startY_ok {a : Int} (h1 : 1 ≤ a) (h9 : a ≤ 9) {H rows s : Nat} (hs : 0 < s) (h : 16 * s * rows + 32 ≤ H)
    (hH : (H : Int) ≤ INT_MAX) : startY a H rows s = .ok (Spec.top a.toNat H s rows : Nat) := by
  have e0 : rows * 16 * s = 16 * s * rows := by rw [Nat.mul_comm rows 16, Nat.mul_right_comm]
  unfold startY Spec.top
  rw [extent_ok hs (W := H) (by omega) hH, Res.bind_ok, e0]
  generalize 16 * s * rows = e at *
  have d2 : ((H : Int) - (e : Int)).tdiv 2 = (((H - e) / 2 : Nat) : Int) := by
    rw [← Int.ofNat_sub (by omega)]
    exact (Int.ofNat_tdiv _ 2).symm
  obtain ⟨m, rfl⟩ : ∃ m : Nat, a = m := ⟨a.toNat, by omega⟩
  have g1 : 1 ≤ m := by omega
  have g9 : m ≤ 9 := by omega
  rw [Int.toNat_natCast]
  have bound : ∀ k : Nat, k ≤ H → i32 (k : Int) = .ok (k : Int) := fun k hk =>
    i32_ok (by unfold InI32 INT_MIN INT_MAX at *; omega)
  by_cases c1 : 7 ≤ m
  · rw [if_pos (by omega), if_pos c1]; rfl
  · rw [if_neg (by omega), if_neg c1]
    by_cases c2 : 4 ≤ m
    · rw [if_pos (by omega), if_pos c2, d2]
      rw [bound ((H - e) / 2) (by omega)]
    · rw [if_neg (by omega), if_neg c2]
      rw [show (H : Int) - (e : Int) - 16 = ((H - e - 16 : Nat) : Int) by omega]
      rw [bound (H - e - 16) (by omega)]

theorem drawLines_ok {al : Nat} (ha : AlignOk al) (font : Nat → Nat) {f : Frm} (hv : Valid al f) (hw : Workable f.fmt) {s : Nat}
    (hs0 : 0 < s) (hs : s ≤ 65536) {a : Int} (h1 : 1 ≤ a) (h9 : a ≤ 9) {L : List (List Nat)}
    (hl : ∀ l ∈ L, 8 * s * l.length + 32 ≤ f.width) {y : Nat} (hy : y + 16 * s * L.length ≤ f.height)
    (hc : ∀ c ∈ pageCells a.toNat f.width s y L, Fits f s c) {ps : List Buf} {St : Nat → Nat → Nat → Nat}
    (h : PlanesHold al f ps St) :
    ∃ ps', drawLines (drawChar al font f s) a f.width s y L ps = .ok ps' ∧
      PlanesHold al f ps' (fun p => (pageCells a.toNat f.width s y L).foldl (upd font f s p) (St p)) := by
  induction L generalizing y ps St with
  | nil => exact ⟨ps, rfl, h⟩
  | cons l t ih =>
    have hrows := hv.rows
    rw [List.length_cons, Nat.mul_add, Nat.mul_one] at hy
    obtain ⟨ps1, e1, g1⟩ := drawLine_ok ha font hv hw hs0 hs
      (fun c hm => hc c (by rw [pageCells]; exact List.mem_append_left _ hm)) h
    obtain ⟨ps2, e2, g2⟩ := ih (y := y + 16 * s) (fun l' hl' => hl l' (List.mem_cons_of_mem _ hl')) (by omega)
      (fun c hm => hc c (by rw [pageCells]; exact List.mem_append_right _ hm)) g1
    refine ⟨ps2, ?_, ?_⟩
    · rw [drawLines, startX_ok h1 h9 hs0 (hl l List.mem_cons_self) (width_le hv), Res.bind_ok, e1, Res.bind_ok,
        i32_ok (by unfold InI32 INT_MIN INT_MAX at *; omega), Res.bind_ok,
        i32_ok (by unfold InI32 INT_MIN INT_MAX at *; omega), Res.bind_ok]
      exact e2
    · rw [show (fun p => (pageCells a.toNat f.width s y (l :: t)).foldl (upd font f s p) (St p)) =
        (fun p => (pageCells a.toNat f.width s (y + 16 * s) t).foldl (upd font f s p)
          ((lineCells (Spec.left a.toNat f.width s l.length) y s 0 l).foldl (upd font f s p) (St p))) from by
        funext p
        rw [pageCells, List.foldl_append]]
      exact g2

/-! ## The result at a point -/

theorem fold_out {α : Type} {g : (Nat → Nat → Nat) → α → Nat → Nat → Nat} {cov : α → Prop} {x y : Nat} {l : List α}
    (hg : ∀ S c, c ∈ l → ¬ cov c → g S c x y = S x y) (h : ∀ c ∈ l, ¬ cov c) (S : Nat → Nat → Nat) :
    l.foldl g S x y = S x y := by
  induction l generalizing S with
  | nil => rfl
  | cons a t ih =>
    rw [List.foldl_cons, ih (fun S c hc => hg S c (List.mem_cons_of_mem _ hc)) (fun c hc => h c (List.mem_cons_of_mem _ hc))]
    exact hg S a List.mem_cons_self (h a List.mem_cons_self)

theorem fold_in {α : Type} {g : (Nat → Nat → Nat) → α → Nat → Nat → Nat} {cov : α → Prop} {x y v : Nat} {l : List α}
    (hg : ∀ S c, c ∈ l → ¬ cov c → g S c x y = S x y) (hv : ∀ S c, c ∈ l → cov c → g S c x y = v)
    (h : ∃ c ∈ l, cov c) (S : Nat → Nat → Nat) : l.foldl g S x y = v := by
  induction l generalizing S with
  | nil => obtain ⟨c, hc, _⟩ := h; simp at hc
  | cons a t ih =>
    rw [List.foldl_cons]
    by_cases ht : ∃ c ∈ t, cov c
    · exact ih (fun S c hc => hg S c (List.mem_cons_of_mem _ hc)) (fun S c hc => hv S c (List.mem_cons_of_mem _ hc)) ht _
    · rw [fold_out (cov := cov) (fun S c hc => hg S c (List.mem_cons_of_mem _ hc)) (fun c hc hcov => ht ⟨c, hc, hcov⟩)]
      obtain ⟨c, hc, hcov⟩ := h
      rcases List.mem_cons.1 hc with rfl | hc
      · exact hv S c List.mem_cons_self hcov
      · exact absurd ⟨c, hc, hcov⟩ ht

/-- Characters do not overlap. -/
theorem cells_disjoint {L : List (List Nat)} {a W H s c x y c' x' y' u v u' v' : Nat}
    (h : Spec.Cell L a W H s c x y) (h' : Spec.Cell L a W H s c' x' y') (hu : u < 8 * s) (hv : v < 16 * s) (hu' : u' < 8 * s)
    (hv' : v' < 16 * s) (ex : x + u = x' + u') (ey : y + v = y' + v') : c = c' ∧ x = x' ∧ y = y' := by
  obtain ⟨i, j, l, h1, h2, h3, h4⟩ := h
  obtain ⟨i', j', l', g1, g2, g3, g4⟩ := h'
  have dv : ∀ {t q r q' r' : Nat}, r < t → r' < t → t * q + r = t * q' + r' → q = q' := by
    intro t q r q' r' hr hr' e
    have e1 : (t * q + r) / t = q := by rw [Nat.mul_add_div (by omega), Nat.div_eq_of_lt hr, Nat.add_zero]
    have e2 : (t * q' + r') / t = q' := by rw [Nat.mul_add_div (by omega), Nat.div_eq_of_lt hr', Nat.add_zero]
    rw [← e1, ← e2, e]
  have ei : i = i' := dv hv hv' (by omega)
  subst ei
  rw [h1, Option.some.injEq] at g1
  subst g1
  have ej : j = j' := dv hu hu' (by omega)
  subst ej
  rw [h2, Option.some.injEq] at g2
  exact ⟨g2, by omega, by omega⟩

end VS.Text
