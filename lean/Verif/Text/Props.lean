import Verif.Text.LemmasPage
import Verif.Point.Example

/-! # C91: the text filters -/

namespace VS.Text
open VS VS.Format VS.Map VS.Map.Spec VS.Pix VS.Pix.Spec VS.Point VS.Point.Spec

/-! ## Drawing -/

theorem mul_div_le' (t W : Nat) : t * (W / t) ≤ W := Nat.mul_div_le W t

theorem line_fit {W s k : Nat} (hW : 32 + 8 * s ≤ W) (h : k ≤ (W - 32) / (8 * s)) : 8 * s * k + 32 ≤ W := by
  have h1 : 8 * s * k ≤ 8 * s * ((W - 32) / (8 * s)) := Nat.mul_le_mul_left _ h
  have h2 := mul_div_le' (8 * s) (W - 32)
  omega

theorem rows_fit {H s k : Nat} (hH : 32 + 16 * s ≤ H) (h : k ≤ (H - 32) / (16 * s)) : 16 * s * k + 32 ≤ H := by
  have h1 : 16 * s * k ≤ 16 * s * ((H - 32) / (16 * s)) := Nat.mul_le_mul_left _ h
  have h2 := mul_div_le' (16 * s) (H - 32)
  omega

theorem left_fit {a W s k : Nat} (h : 8 * s * k + 32 ≤ W) : 16 ≤ Spec.left a W s k ∧ Spec.left a W s k + 8 * s * k + 16 ≤ W := by
  unfold Spec.left
  repeat' split
  all_goals omega

theorem top_fit {a H s k : Nat} (h : 16 * s * k + 32 ≤ H) : 16 ≤ Spec.top a H s k ∧ Spec.top a H s k + 16 * s * k + 16 ≤ H := by
  unfold Spec.top
  repeat' split
  all_goals omega

/-- Characters stay away from the border. -/
theorem cell_fits {W H s a : Nat} (hs : 0 < s) (hW : 32 + 8 * s ≤ W) (hH : 32 + 16 * s ≤ H) {txt : List Nat} {c x y : Nat}
    (h : Spec.Cell (pageOf W H s txt) a W H s c x y) :
    16 ≤ x ∧ x + 8 * s + 16 ≤ W ∧ 16 ≤ y ∧ y + 16 * s + 16 ≤ H := by
  obtain ⟨i, j, line, h1, h2, h3, h4⟩ := h
  have hj := (List.getElem?_eq_some_iff.1 h2).1
  have hi := (List.getElem?_eq_some_iff.1 h1).1
  have f1 := left_fit (a := a) (line_fit hW (page_short hs hW (List.mem_of_getElem? h1)))
  have f2 := top_fit (a := a) (rows_fit hH (page_rows W H s txt))
  have g1 : 8 * s * (j + 1) ≤ 8 * s * line.length := Nat.mul_le_mul_left _ hj
  have g2 : 16 * s * (i + 1) ≤ 16 * s * (pageOf W H s txt).length := Nat.mul_le_mul_left _ hi
  rw [Nat.mul_add, Nat.mul_one] at g1 g2
  omega

theorem scrawl_frame {al : Nat} (ha : AlignOk al) (font : Nat → Nat) {f : Frm} (hv : Valid al f) (hw : Workable f.fmt) {s : Nat}
    (hs0 : 0 < s) (hs : s ≤ 65536) {a : Int} (h1 : 1 ≤ a) (h9 : a ≤ 9) (hW : 32 + 8 * s ≤ f.width) (hH : 32 + 16 * s ≤ f.height)
    {txt : List Nat} (hb : ∀ c ∈ txt, c < 256) :
    ∃ g, scrawlText al font txt a s f = .ok g ∧ Spec.Drawn al font f g (pageOf f.width f.height s txt) a.toNat s := by
  have hww := width_le hv
  have hrows := hv.rows
  have hL := rows_fit hH (page_rows f.width f.height s txt)
  have v := vals hv.fmt hw
  have cellIff : ∀ c : Place, c ∈ pageCells a.toNat f.width s (Spec.top a.toNat f.height s (pageOf f.width f.height s txt).length)
      (pageOf f.width f.height s txt) ↔ Spec.Cell (pageOf f.width f.height s txt) a.toNat f.width f.height s c.1 c.2.1 c.2.2 :=
    fun c => mem_pageCells
  have fits : ∀ c ∈ pageCells a.toNat f.width s (Spec.top a.toNat f.height s (pageOf f.width f.height s txt).length)
      (pageOf f.width f.height s txt), Fits f s c := by
    intro c hc
    have hcell := (cellIff c).1 hc
    have b := cell_fits hs0 hW hH hcell
    obtain ⟨i, j, line, e1, e2, _, _⟩ := hcell
    exact ⟨page_chars hs0 hW hb (List.mem_of_getElem? e1) (List.mem_of_getElem? e2), by omega, by omega⟩
  have start : PlanesHold al f f.planes (fun p => smp al f p) := by
    refine ⟨rfl, fun p b hp => ⟨hv.size p b hp, fun x y _ _ => (smp_eq hp x y).symm⟩⟩
  obtain ⟨ps, e, hp⟩ := drawLines_ok ha font hv hw hs0 hs h1 h9
    (fun l hl => line_fit hW (page_short hs0 hW hl)) (by have := top_fit (a := a.toNat) hL; omega) fits start
  refine ⟨{ f with planes := ps }, ?_, ?_⟩
  · unfold scrawlText
    rw [i32_ok (by unfold InI32 INT_MIN INT_MAX at *; omega), Res.bind_ok,
      i32_ok (by unfold InI32 INT_MIN INT_MAX at *; omega), Res.bind_ok,
      show ((f.width : Int) - 32).toNat = f.width - 32 by omega, show ((f.height : Int) - 32).toNat = f.height - 32 by omega,
      splitText_ok hs0 hW, Res.bind_ok, startY_ok h1 h9 hs0 hL hrows, Res.bind_ok, e, Res.bind_ok]
  · have plane : ∀ p : Nat, (p : Int) < f.fmt.numPlanes → ∃ b, ps[p]? = some b := by
      intro p hpn
      have : p < ps.length := by rw [hp.1]; have := hv.count; omega
      exact ⟨_, List.getElem?_eq_getElem this⟩
    have value : ∀ (p x y : Nat), (p : Int) < f.fmt.numPlanes → x < f.w p → y < f.h p → smp al { f with planes := ps } p x y =
        (pageCells a.toNat f.width s (Spec.top a.toNat f.height s (pageOf f.width f.height s txt).length)
          (pageOf f.width f.height s txt)).foldl (upd font f s p) (smp al f p) x y := by
      intro p x y hpn hx hy
      obtain ⟨b, hb⟩ := plane p hpn
      rw [smp_eq (f := { f with planes := ps }) hb]
      exact (hp.2 p b hb).2 x y hx hy
    have full : ∀ p : Nat, p = 0 ∨ f.fmt.colorFamily = cfRGB → f.w p = f.width ∧ f.h p = f.height := by
      intro p h
      have e0 : ssw f.fmt p = 0 ∧ ssh f.fmt p = 0 := by
        rcases h with h | h
        · rw [h]; exact ⟨rfl, rfl⟩
        · exact rgb_ss hv.fmt h p
      unfold Frm.w Frm.h
      rw [e0.1, e0.2]
      simp
    refine ⟨rfl, rfl, rfl, rfl, ?_, ?_, ?_, ?_, ?_⟩
    · refine ⟨hv.fmt, hv.known, hv.width, hv.height, hv.modW, hv.modH, hv.row, hv.rows, ?_, fun p b hb => (hp.2 p b hb).1⟩
      show (ps.length : Int) = _
      rw [hp.1, hv.count]
    · intro p x y c u w hpn hpp hcell hu hw'
      have b := cell_fits hs0 hW hH hcell
      obtain ⟨fw, fh⟩ := full p hpp
      rw [value p _ _ hpn (by omega) (by omega)]
      refine fold_in (cov := fun c' : Place => c'.2.1 ≤ x + u ∧ x + u < c'.2.1 + 8 * s ∧ c'.2.2 ≤ y + w ∧ y + w < c'.2.2 + 16 * s)
        ?_ ?_ ⟨(c, x, y), (cellIff _).2 hcell, by simp only; omega⟩ _
      · intro S c' _ hcov
        unfold upd
        rw [if_pos hpp.symm]
        unfold rect
        rw [if_neg hcov]
      · intro S c' hc' hcov
        unfold upd
        rw [if_pos hpp.symm]
        unfold rect
        rw [if_pos hcov]
        obtain ⟨d1, d2, d3⟩ := cells_disjoint (u := u) (v := w) (u' := x + u - c'.2.1) (v' := y + w - c'.2.2) hcell
          ((cellIff c').1 hc') hu hw' (by omega) (by omega) (by omega) (by omega)
        rw [← d1, ← d2, ← d3, Nat.add_sub_cancel_left, Nat.add_sub_cancel_left]
        unfold glyphPx
        rw [v.white, v.black]
    · intro p x y hpn hpp hx hy hno
      rw [value p x y hpn hx hy]
      refine fold_out (cov := fun c' : Place => c'.2.1 ≤ x ∧ x < c'.2.1 + 8 * s ∧ c'.2.2 ≤ y ∧ y < c'.2.2 + 16 * s)
        ?_ (fun c' hc' => hno _ _ _ ((cellIff c').1 hc')) _
      intro S c' _ hcov
      unfold upd
      rw [if_pos hpp.symm]
      unfold rect
      rw [if_neg hcov]
    · intro p x y c u w hpn hp0 hrgb hcell hu hw'
      have b := cell_fits hs0 hW hH hcell
      have e : ¬ (f.fmt.colorFamily = cfRGB ∨ p = 0) := by rintro (h | h) <;> contradiction
      have k1 : x / 2 ^ ssw f.fmt p + 8 * s / 2 ^ ssw f.fmt p ≤ f.w p :=
        Nat.le_trans (add_div_le _ _ _) (Nat.div_le_div_right (by omega))
      have k2 : y / 2 ^ ssh f.fmt p + 16 * s / 2 ^ ssh f.fmt p ≤ f.h p :=
        Nat.le_trans (add_div_le _ _ _) (Nat.div_le_div_right (by omega))
      rw [value p _ _ hpn (by omega) (by omega)]
      refine fold_in (cov := fun c' : Place => c'.2.1 / 2 ^ ssw f.fmt p ≤ x / 2 ^ ssw f.fmt p + u ∧
          x / 2 ^ ssw f.fmt p + u < c'.2.1 / 2 ^ ssw f.fmt p + 8 * s / 2 ^ ssw f.fmt p ∧
          c'.2.2 / 2 ^ ssh f.fmt p ≤ y / 2 ^ ssh f.fmt p + w ∧
          y / 2 ^ ssh f.fmt p + w < c'.2.2 / 2 ^ ssh f.fmt p + 16 * s / 2 ^ ssh f.fmt p)
        ?_ ?_ ⟨(c, x, y), (cellIff _).2 hcell, by simp only; omega⟩ _
      · intro S c' _ hcov
        unfold upd
        rw [if_neg e]
        unfold rect
        rw [if_neg hcov]
      · intro S c' _ hcov
        unfold upd
        rw [if_neg e]
        unfold rect
        rw [if_pos hcov]
        exact v.gray
    · intro p x y hpn hp0 hrgb hx hy hno
      have e : ¬ (f.fmt.colorFamily = cfRGB ∨ p = 0) := by rintro (h | h) <;> contradiction
      rw [value p x y hpn hx hy]
      refine fold_out (cov := fun c' : Place => c'.2.1 / 2 ^ ssw f.fmt p ≤ x ∧
          x < c'.2.1 / 2 ^ ssw f.fmt p + 8 * s / 2 ^ ssw f.fmt p ∧ c'.2.2 / 2 ^ ssh f.fmt p ≤ y ∧
          y < c'.2.2 / 2 ^ ssh f.fmt p + 16 * s / 2 ^ ssh f.fmt p)
        ?_ (fun c' hc' => hno _ _ _ ((cellIff c').1 hc')) _
      intro S c' _ hcov
      unfold upd
      rw [if_neg e]
      unfold rect
      rw [if_neg hcov]

/-! ## The filter -/

theorem var_iff (f : VFmt) : is8to16orFloatVar f = true ↔ Spec.Accepted f := by
  unfold Spec.Accepted is8to16orFloatVar
  by_cases h : (f.sampleType = stInteger ∧ f.bitsPerSample > 16) ∨
      (f.sampleType = stFloat ∧ ¬ (f.bitsPerSample = 32 ∨ f.bitsPerSample = 16))
  · rw [if_pos h]
    refine ⟨fun e => by simp at e, ?_⟩
    rintro ⟨a, b⟩
    rcases h with ⟨h1, h2⟩ | ⟨h1, h2⟩
    · have := a h1; omega
    · exact absurd (b h1).symm h2
  · rw [if_neg h]
    refine ⟨fun _ => ⟨fun t => ?_, fun t => ?_⟩, fun _ => rfl⟩
    · by_contra hc
      exact h (Or.inl ⟨t, by omega⟩)
    · by_contra hc
      exact h (Or.inr ⟨t, fun e => hc e.symm⟩)

/-- The argument as it is used. -/
theorem sat_range {i lo hi : Int} (h1 : -2 ^ 31 < lo) (h2 : hi < 2 ^ 31 - 1) :
    (int64ToIntS i < lo ∨ int64ToIntS i > hi) ↔ (i < lo ∨ i > hi) := by
  unfold int64ToIntS INT_MAX INT_MIN
  split
  · omega
  · split <;> omega

theorem sat_getD {o : Option Int} {d lo hi : Int} (h1 : -2 ^ 31 < lo) (h2 : hi < 2 ^ 31 - 1) :
    ((o.map int64ToIntS).getD d < lo ∨ (o.map int64ToIntS).getD d > hi) ↔ (o.getD d < lo ∨ o.getD d > hi) := by
  cases o with
  | none => exact Iff.rfl
  | some i => exact sat_range h1 h2

theorem sat_eq {o : Option Int} {d lo hi : Int} (h1 : -2 ^ 31 < lo) (h2 : hi < 2 ^ 31 - 1) (h3 : lo ≤ o.getD d) (h4 : o.getD d ≤ hi) :
    (o.map int64ToIntS).getD d = o.getD d := by
  cases o with
  | none => rfl
  | some i =>
    show int64ToIntS i = i
    have h3' : lo ≤ i := h3
    have h4' : i ≤ hi := h4
    unfold int64ToIntS INT_MAX INT_MIN
    split
    · omega
    · split <;> omega

/-- The filter that is created. -/
def textFilter (al : Nat) (font : Nat → Nat) (name : String) (text : Nat → Frm → List Nat) (vi : VInfo) (a : Int) (s : Nat) : PFilter :=
  ⟨vi, fun n => [(0, n)], fun n get _ => get 0 n >>= fun src => textReady al font name text a s n src⟩

theorem create_ok {al : Nat} {font : Nat → Nat} {name : String} {text : Nat → Frm → List Nat} {c : PClip} (hv : ValidClip al c)
    {alignment scale : Option Int} (hf : Spec.Accepted c.vi.format) (h1 : 1 ≤ alignment.getD 7) (h9 : alignment.getD 7 ≤ 9)
    (hs0 : 1 ≤ scale.getD 1) (hs : scale.getD 1 ≤ 65536) :
    textCreate al font name text c.vi alignment scale =
      .ok (.filter (textFilter al font name text c.vi (alignment.getD 7) (scale.getD 1).toNat)) := by
  unfold textCreate
  rw [if_neg (by rw [(var_iff _).2 hf]; simp)]
  simp only
  rw [sat_eq (lo := 1) (hi := 9) (by decide) (by decide) h1 h9, if_neg (by omega),
    sat_eq (lo := 1) (hi := 65536) (by decide) (by decide) hs0 hs, if_neg (by omega)]
  unfold create
  simp only
  rw [hv.info, Res.bind_ok, if_pos rfl]
  rfl

theorem ready_eq {al : Nat} {font : Nat → Nat} {name : String} {text : Nat → Frm → List Nat} {c : PClip} (hv : ValidClip al c)
    {n : Nat} {f : Frm} (hf : at? c n = some f) {a : Int} {s : Nat} (junk : Junk) :
    (textFilter al font name text c.vi a s).ready n (getFrameFilter [c] ((textFilter al font name text c.vi a s).reqs n)) junk =
      textReady al font name text a s n f := by
  show (getFrameFilter [c] [(0, n)] 0 n >>= fun src => textReady al font name text a s n src) = _
  rw [get_ok (i := 0) rfl hv (List.mem_singleton.2 rfl) hf, Res.bind_ok]

/-- **C91, drawing.** Every frame that is large enough and of a format the filter can work on is returned with the lines of
the text on it: all pixels of the characters that are shown are white or black as in the font, the color below them is
erased, and everything else, the properties included, stays as it is. -/
theorem C91_text {al : Nat} (ha : AlignOk al) (font : Nat → Nat) (name : String) (text : Nat → Frm → List Nat) {c : PClip}
    (hv : ValidClip al c) {alignment scale : Option Int} (h1 : 1 ≤ alignment.getD 7) (h9 : alignment.getD 7 ≤ 9)
    (hs0 : 1 ≤ scale.getD 1) (hs : scale.getD 1 ≤ 65536) (hf : Spec.Accepted c.vi.format)
    {n : Nat} {f : Frm} (hn : at? c n = some f) (hw : Workable f.fmt)
    (hW : 32 + 8 * (scale.getD 1).toNat ≤ f.width) (hH : 32 + 16 * (scale.getD 1).toNat ≤ f.height)
    (hb : ∀ b ∈ text n f, b < 256) :
    ∃ C, textCreate al font name text c.vi alignment scale = .ok C ∧ ∀ junk, ∃ g L, C.frame [c] n junk = .ok g ∧
      Spec.Page f.width f.height (scale.getD 1).toNat (text n f) L ∧
      Spec.Drawn al font f g L (alignment.getD 7).toNat (scale.getD 1).toNat := by
  refine ⟨_, create_ok hv hf h1 h9 hs0 hs, fun junk => ?_⟩
  generalize scale.getD 1 = z at *
  obtain ⟨s, rfl⟩ : ∃ s : Nat, z = s := ⟨z.toNat, by omega⟩
  simp only [Int.toNat_natCast] at *
  have hfv := hv.frames f (at_mem hn)
  obtain ⟨g, e, hd⟩ := scrawl_frame ha font hfv hw (s := s) (by omega) (by omega) h1 h9 hW hH hb
  refine ⟨g, _, frame_ok (g := g) ?_ ?_ ?_, page_ok (by omega) hW _, hd⟩
  · rw [ready_eq hv hn]
    unfold textReady
    rw [if_neg (by rw [(workable_iff _).2 hw]; simp),
      i32_ok (by unfold InI32 INT_MIN INT_MAX; omega), Res.bind_ok, i32_ok (by unfold InI32 INT_MIN INT_MAX; omega), Res.bind_ok,
      i32_ok (by unfold InI32 INT_MIN INT_MAX; omega), Res.bind_ok, i32_ok (by unfold InI32 INT_MIN INT_MAX; omega), Res.bind_ok,
      if_neg (by omega)]
    exact e
  · intro hk
    rw [hd.fmt]
    exact hv.fmt f (at_mem hn) hk
  · intro hk
    rw [hd.width, hd.height]
    exact hv.size f (at_mem hn) hk

/-- **C91, the lines.** Every text has exactly one way to be shown, so that `C91_text` determines the picture. -/
theorem C91_lines {W H s : Nat} (hs : 0 < s) (hW : 32 + 8 * s ≤ W) (txt : List Nat) : ∃! L, Spec.Page W H s txt L :=
  ⟨_, page_ok hs hW txt, fun _ h => page_unique hs hW h⟩

/-- **C91, the margin.** 16 pixels on each side are never touched. -/
theorem C91_margin {al : Nat} {font : Nat → Nat} {f g : Frm} {txt : List Nat} {L : List (List Nat)} {a s : Nat} (hs : 0 < s)
    (hW : 32 + 8 * s ≤ f.width) (hH : 32 + 16 * s ≤ f.height) (hL : Spec.Page f.width f.height s txt L)
    (hd : Spec.Drawn al font f g L a s) {p x y : Nat} (hp : (p : Int) < f.fmt.numPlanes) (hpp : p = 0 ∨ f.fmt.colorFamily = cfRGB)
    (hx : x < f.w p) (hy : y < f.h p) (hm : x < 16 ∨ f.width ≤ x + 16 ∨ y < 16 ∨ f.height ≤ y + 16) :
    smp al g p x y = smp al f p x y := by
  refine hd.outside p x y hp hpp hx hy (fun c x' y' hc => ?_)
  rw [page_unique hs hW hL] at hc
  have := cell_fits hs hW hH hc
  omega

/-- **C91, frames that are refused.** A frame of another format, or one without room for a single character between the
margins, is an error; nothing is drawn. -/
theorem C91_refused {al : Nat} (font : Nat → Nat) (name : String) (text : Nat → Frm → List Nat) {c : PClip}
    (hv : ValidClip al c) {alignment scale : Option Int} (h1 : 1 ≤ alignment.getD 7) (h9 : alignment.getD 7 ≤ 9)
    (hs0 : 1 ≤ scale.getD 1) (hs : scale.getD 1 ≤ 65536) (hf : Spec.Accepted c.vi.format) {n : Nat} {f : Frm} (hn : at? c n = some f)
    (hbad : ¬ Workable f.fmt ∨ (f.width : Int) < 32 + 8 * scale.getD 1 ∨ (f.height : Int) < 32 + 16 * scale.getD 1) :
    ∃ C, textCreate al font name text c.vi alignment scale = .ok C ∧ ∀ junk, ∃ m, C.frame [c] n junk = .err m ∧
      (¬ Workable f.fmt → m = name ++ ": Input clip must be constant format 8..16 bit integer or 16-32 bit float") ∧
      (Workable f.fmt → m = name ++ ": frame size must be at least " ++ toString (32 + 8 * scale.getD 1) ++ "x" ++
          toString (32 + 16 * scale.getD 1) ++ " pixels.") := by
  refine ⟨_, create_ok hv hf h1 h9 hs0 hs, fun junk => ?_⟩
  generalize scale.getD 1 = z at *
  obtain ⟨s, rfl⟩ : ∃ s : Nat, z = s := ⟨z.toNat, by omega⟩
  simp only [Int.toNat_natCast] at *
  by_cases hw : Workable f.fmt
  · refine ⟨_, frame_err ?_, fun h => absurd hw h, fun _ => rfl⟩
    rw [ready_eq hv hn]
    unfold textReady
    rw [if_neg (by rw [(workable_iff _).2 hw]; simp),
      i32_ok (by unfold InI32 INT_MIN INT_MAX; omega), Res.bind_ok, i32_ok (by unfold InI32 INT_MIN INT_MAX; omega), Res.bind_ok,
      i32_ok (by unfold InI32 INT_MIN INT_MAX; omega), Res.bind_ok, i32_ok (by unfold InI32 INT_MIN INT_MAX; omega), Res.bind_ok,
      if_pos (by rcases hbad with h | h | h; exact absurd hw h; exact Or.inl h; exact Or.inr h)]
  · refine ⟨_, frame_err ?_, fun _ => rfl, fun h => absurd h hw⟩
    rw [ready_eq hv hn]
    unfold textReady
    rw [if_pos (by
      cases e : is8to16orFloat f.fmt with
      | false => rfl
      | true => exact absurd ((workable_iff _).1 e) hw)]
    rfl

/-- **C91, arguments.** The filter is created exactly if the format is accepted, the alignment is a key of the number pad
and the scale is from 1 to 65536; otherwise the first of these that is wrong is reported. -/
theorem C91_arguments {al : Nat} (font : Nat → Nat) (name : String) (text : Nat → Frm → List Nat) {c : PClip}
    (hv : ValidClip al c) (alignment scale : Option Int) :
    ((∃ C, textCreate al font name text c.vi alignment scale = .ok C) ↔
      Spec.Accepted c.vi.format ∧ (1 ≤ alignment.getD 7 ∧ alignment.getD 7 ≤ 9) ∧ 1 ≤ scale.getD 1 ∧ scale.getD 1 ≤ 65536) ∧
    (¬ Spec.Accepted c.vi.format → textCreate al font name text c.vi alignment scale =
      .err "Text: Input clip must be 8..16 bit integer or 16-32 bit float") ∧
    (Spec.Accepted c.vi.format → ¬ (1 ≤ alignment.getD 7 ∧ alignment.getD 7 ≤ 9) → textCreate al font name text c.vi alignment scale =
      .err "Text: alignment must be between 1 and 9 (think numpad)") ∧
    (Spec.Accepted c.vi.format → (1 ≤ alignment.getD 7 ∧ alignment.getD 7 ≤ 9) → ¬ (1 ≤ scale.getD 1 ∧ scale.getD 1 ≤ 65536) →
      textCreate al font name text c.vi alignment scale =
        .err "Text: scale must be a positive integer no larger than 65536") := by
  have k1 : ¬ Spec.Accepted c.vi.format → textCreate al font name text c.vi alignment scale =
      .err "Text: Input clip must be 8..16 bit integer or 16-32 bit float" := by
    intro h
    unfold textCreate
    rw [if_pos (by
      cases e : is8to16orFloatVar c.vi.format with
      | false => rfl
      | true => exact absurd ((var_iff _).1 e) h)]
    rfl
  have k2 : Spec.Accepted c.vi.format → ¬ (1 ≤ alignment.getD 7 ∧ alignment.getD 7 ≤ 9) →
      textCreate al font name text c.vi alignment scale = .err "Text: alignment must be between 1 and 9 (think numpad)" := by
    intro h g
    unfold textCreate
    rw [if_neg (by rw [(var_iff _).2 h]; simp)]
    simp only
    rw [if_pos ((sat_getD (by decide) (by decide)).2 (by omega))]
  have k3 : Spec.Accepted c.vi.format → (1 ≤ alignment.getD 7 ∧ alignment.getD 7 ≤ 9) → ¬ (1 ≤ scale.getD 1 ∧ scale.getD 1 ≤ 65536) →
      textCreate al font name text c.vi alignment scale =
        .err "Text: scale must be a positive integer no larger than 65536" := by
    intro h g g2
    unfold textCreate
    rw [if_neg (by rw [(var_iff _).2 h]; simp)]
    simp only
    rw [if_neg (fun e => by have := (sat_getD (by decide) (by decide)).1 e; omega),
      if_pos ((sat_getD (by decide) (by decide)).2 (by omega))]
  refine ⟨⟨?_, fun ⟨h, g, g2⟩ => ⟨_, create_ok hv h g.1 g.2 g2.1 g2.2⟩⟩, k1, k2, k3⟩
  rintro ⟨C, hC⟩
  by_cases h : Spec.Accepted c.vi.format
  · by_cases g : 1 ≤ alignment.getD 7 ∧ alignment.getD 7 ≤ 9
    · by_cases g2 : 1 ≤ scale.getD 1 ∧ scale.getD 1 ≤ 65536
      · exact ⟨h, g, g2⟩
      · rw [k3 h g g2] at hC; cases hC
    · rw [k2 h g] at hC; cases hC
  · rw [k1 h] at hC; cases hC

/-! ## The texts -/

/-- **C91, Text.** The text is the data given up to the first zero. -/
theorem C91_data (data : List Nat) (n : Nat) (f : Frm) :
    (textText data n f <+: data) ∧ 0 ∉ textText data n f ∧
      (textText data n f = data ∨ ∃ t, data = textText data n f ++ 0 :: t) := by
  unfold textText
  refine ⟨List.takeWhile_prefix _, ?_, ?_⟩
  · intro h
    have := List.all_takeWhile (p := fun b : Nat => decide (b ≠ 0)) (l := data)
    rw [List.all_eq_true] at this
    have := this 0 h
    simp at this
  · induction data with
    | nil => left; rfl
    | cons a t ih =>
      by_cases h : a = 0
      · right
        subst h
        exact ⟨t, by simp⟩
      · rw [List.takeWhile_cons_of_pos (by simpa using h)]
        rcases ih with e | ⟨u, e⟩
        · left; rw [e]
        · right
          refine ⟨u, ?_⟩
          rw [List.cons_append, ← e]

theorem digitChar_nat {d : Nat} (h : d < 10) : (Nat.digitChar d).toNat = 48 + d := by
  interval_cases d <;> rfl

/-- **C91, FrameNum.** The text is the number of the frame. -/
theorem C91_number (n : Nat) (f : Frm) : Spec.Decimal n (frameNumText n f) := by
  unfold frameNumText
  induction n using Nat.strongRecOn with
  | _ n ih =>
    by_cases h : n < 10
    · rw [Nat.toDigits_of_lt_base h, List.map_singleton, digitChar_nat h]
      refine ⟨?_, ?_, by simp, ?_⟩
      · intro d hd
        rw [List.mem_singleton.1 hd]
        omega
      · simp
      · intro e
        rw [List.head?_cons, Option.some.injEq] at e
        rw [e]
    · rw [Nat.toDigits_of_base_le (by decide) (by omega), List.map_append, List.map_singleton, digitChar_nat (Nat.mod_lt _ (by decide))]
      obtain ⟨i1, i2, i3, i4⟩ := ih (n / 10) (by omega)
      refine ⟨?_, ?_, by simp, ?_⟩
      · intro d hd
        rcases List.mem_append.1 hd with hd | hd
        · exact i1 d hd
        · rw [List.mem_singleton.1 hd]
          omega
      · rw [List.foldl_append, i2]
        simp only [List.foldl_cons, List.foldl_nil]
        omega
      · intro e
        exfalso
        rw [List.head?_append, List.head?_eq_some_head i3] at e
        rw [Option.some_or, ← List.head?_eq_some_head i3] at e
        have e2 := i4 e
        rw [e2] at i2
        simp at i2
        omega

/-- The bytes of both texts are bytes. -/
theorem number_bytes (n : Nat) (f : Frm) : ∀ b ∈ frameNumText n f, b < 256 := by
  intro b hb
  have := (C91_number n f).digits b hb
  omega

end VS.Text
