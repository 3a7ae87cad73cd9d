import Verif.Generic.Spec
import Verif.Pixel.Lemmas

/-! # Lemmas about filters on neighbourhoods -/

namespace VS.Generic
open VS VS.Format VS.Map VS.Map.Spec VS.Pix VS.Pix.Spec VS.Point VS.Point.Spec VS.Pixel VS.Pixel.Spec VS.Generic.Spec

/-! ## Reading -/

theorem readAll_ok {R : Nat → Nat → Res Nat} {v : Nat → Nat → Nat} {w h : Nat}
    (hR : ∀ cx cy, cx < w → cy < h → R cx cy = .ok (v cx cy)) : ∀ l : List (Nat × Nat), (∀ c ∈ l, c.1 < w ∧ c.2 < h) →
      readAll R l = .ok (l.map fun c => v c.1 c.2) := by
  intro l
  induction l with
  | nil => exact fun _ => rfl
  | cons c t ih =>
    intro hl
    unfold readAll
    have hc := hl c (by simp)
    rw [hR _ _ hc.1 hc.2, Res.bind_ok, ih (fun d hd => hl d (by simp [hd])), Res.bind_ok]
    rfl

theorem row3_eq {h y : Nat} (hh : 2 ≤ h) (hy : y < h) :
    row3 h y 0 = nearest h (y + -1) ∧ row3 h y 1 = nearest h (y + 0) ∧ row3 h y 2 = nearest h (y + 1) := by
  simp only [row3, nearest]
  refine ⟨?_, ?_, ?_⟩
  · by_cases a : y = 0
    · rw [if_pos a, if_pos (by omega)]
    · rw [if_neg a, if_neg (by omega), if_neg (by omega)]; omega
  · rw [if_neg (by omega), if_neg (by omega)]; omega
  · by_cases a : y = h - 1
    · rw [if_pos a, if_neg (by omega), if_pos (by omega)]
    · rw [if_neg a, if_neg (by omega), if_neg (by omega)]; omega

theorem col3_eq {w x : Nat} (hw : 2 ≤ w) (hx : x < w) :
    col3 w x 0 = nearest w (x + -1) ∧ col3 w x 1 = nearest w (x + 0) ∧ col3 w x 2 = nearest w (x + 1) := by
  simp only [col3, nearest]
  by_cases a : x = 0
  · simp only [if_pos a]
    rw [if_pos (show (x : Int) + -1 < 0 by omega), if_pos (show w > 1 by omega), if_neg (show ¬ (x : Int) + 0 < 0 by omega),
      if_neg (show ¬ (w : Int) ≤ x + 0 by omega), if_neg (show ¬ (x : Int) + 1 < 0 by omega), if_neg (show ¬ (w : Int) ≤ x + 1 by omega)]
    omega
  · simp only [if_neg a]
    rw [if_neg (show ¬ (x : Int) + -1 < 0 by omega), if_neg (show ¬ (w : Int) ≤ x + -1 by omega), if_neg (show ¬ (x : Int) + 0 < 0 by omega),
      if_neg (show ¬ (w : Int) ≤ x + 0 by omega), if_neg (show ¬ (x : Int) + 1 < 0 by omega)]
    by_cases b : x < w - 1
    · simp only [if_pos b]
      rw [if_neg (show ¬ (w : Int) ≤ x + 1 by omega)]
      omega
    · simp only [if_neg b]
      rw [if_pos (show (w : Int) ≤ x + 1 by omega)]
      omega

theorem nearest_lt {n : Nat} (h : 0 < n) (i : Int) : nearest n i < n := by
  unfold nearest
  repeat' split
  all_goals omega

theorem nearest_self {n i : Nat} (h : i < n) : nearest n (i + 0) = i := by
  unfold nearest
  repeat' split
  all_goals omega

/-- The nine samples in the order of rows. -/
def rows9 (v : Nat → Nat → Nat) (w h x y : Nat) : List Nat :=
  [nbr v w h x y (-1, -1), nbr v w h x y (0, -1), nbr v w h x y (1, -1),
   nbr v w h x y (-1, 0), v x y, nbr v w h x y (1, 0),
   nbr v w h x y (-1, 1), nbr v w h x y (0, 1), nbr v w h x y (1, 1)]

theorem cell3_ok (op : List Nat → Nat) {R : Nat → Nat → Res Nat} {v : Nat → Nat → Nat} {w h x y : Nat}
    (hR : ∀ cx cy, cx < w → cy < h → R cx cy = .ok (v cx cy)) (hw : 2 ≤ w) (hh : 2 ≤ h) (hx : x < w) (hy : y < h) :
    cell3 op R w h x y = .ok (op (rows9 v w h x y)) := by
  obtain ⟨r0, r1, r2⟩ := row3_eq hh hy
  obtain ⟨c0, c1, c2⟩ := col3_eq hw hx
  have e : ∀ c ∈ taps3 w h x y, c.1 < w ∧ c.2 < h := by
    unfold taps3
    rw [r0, r1, r2, c0, c1, c2]
    have := fun i => nearest_lt (n := w) (by omega) i
    have := fun i => nearest_lt (n := h) (by omega) i
    simp only [List.mem_cons, List.not_mem_nil, or_false]
    rintro c (rfl | rfl | rfl | rfl | rfl | rfl | rfl | rfl | rfl) <;> exact ⟨by simp [*], by simp [*]⟩
  unfold cell3
  rw [readAll_ok hR _ e, Res.bind_ok]
  unfold taps3 rows9 nbr
  rw [r0, r1, r2, c0, c1, c2]
  simp only [List.map_cons, List.map_nil, nearest_self hx, nearest_self hy]

/-! ## Frames -/

theorem genFrame_ok {al : Nat} (hal : 0 < al) {name : String} {vi : VInfo} {rh rv : Option Nat}
    {cell : (Nat → Nat → Res Nat) → Nat → Nat → Nat → Nat → Res Nat} {s1 : Frm} (v1 : Valid al s1) {process : List Bool}
    (hc : vi.width = 0 ∨ vi.height = 0 → checkPlanes rh rv process s1.fmt.numPlanes.toNat s1.w s1.h = none)
    {G : Nat → Nat → Nat → Nat}
    (hG : ∀ p : Nat, (p : Int) < s1.fmt.numPlanes → process.getD p false = true → ∀ R x y,
      (∀ cx cy, cx < s1.w p → cy < s1.h p → R cx cy = .ok (smp al s1 p cx cy)) → x < s1.w p → y < s1.h p →
      cell R (s1.w p) (s1.h p) x y = .ok (G p x y)) (junk : Junk) :
    ∃ g, genFrame al (bps s1.fmt) name vi rh rv cell process s1 junk = .ok g ∧ Valid al g ∧ g.fmt = s1.fmt ∧ g.width = s1.width ∧
      g.height = s1.height ∧ g.props = s1.props ∧
      ∀ p x y : Nat, (p : Int) < s1.fmt.numPlanes → x < g.w p → y < g.h p →
        smp al g p x y = if process.getD p false then G p x y % 256 ^ bps s1.fmt else smp al s1 p x y := by
  unfold genFrame
  have : (if vi.width = 0 ∨ vi.height = 0 then checkPlanes rh rv process s1.fmt.numPlanes.toNat s1.w s1.h else none) = none := by
    split
    · next h => exact hc h
    · rfl
  rw [this]
  dsimp only
  refine flags_ok v1 rfl (fun p => process.getD p false) _ G s1.props junk ?_
  intro p b hp hproc hsz
  have hc := v1.count
  obtain ⟨b1, e1⟩ : ∃ b, s1.planes[p]? = some b := ⟨_, List.getElem?_eq_getElem (by omega)⟩
  have hpl : s1.plane p = .ok b1 := by unfold Frm.plane; rw [e1]
  unfold genPlane
  rw [hpl, Res.bind_ok]
  exact fill_ok (G := fun x y => G p x y) (stride_ge hal s1 p) (by
    intro x y hx hy
    exact hG p hp hproc _ x y (fun cx cy hcx hcy => rd_smp hal v1 e1 hcx hcy) hx hy) hsz

theorem checkPlanes_none {rh rv : Option Nat} {process : List Bool} {n : Nat} {w h : Nat → Nat} :
    checkPlanes rh rv process n w h = none ↔ ∀ p, p < n → process.getD p false = true → checkDims rh rv (w p) (h p) = none := by
  unfold checkPlanes
  rw [List.findSome?_eq_none_iff]
  constructor
  · intro hh p hp hpr
    have := hh p (List.mem_range.2 hp)
    rw [hpr] at this
    exact this
  · intro hh p hp
    cases e : process.getD p false with
    | false => rfl
    | true => exact hh p (List.mem_range.1 hp) e

/-- The result of a filter with known cells. -/
theorem gen_gives {al : Nat} (hal : AlignOk al) {name : String} {rh rv : Option Nat}
    {cell : (Nat → Nat → Res Nat) → Nat → Nat → Nat → Nat → Res Nat} {c : PClip} (hv : ValidClip al c) {planes : List Int}
    {process : List Bool} {bytes : Nat} (hpr : ∀ p : Nat, p < 3 → process.getD p false = decide (Wanted planes p)) {n : Nat} {f : Frm}
    (hf : at? c n = some f) (hb : bytes = bps f.fmt)
    (hd : ∀ p : Nat, (p : Int) < f.fmt.numPlanes → Wanted planes p → checkDims rh rv (f.w p) (f.h p) = none)
    {S : Nat → Nat → Nat → Nat}
    (hS : ∀ p : Nat, (p : Int) < f.fmt.numPlanes → Wanted planes p → ∀ R x y,
      (∀ cx cy, cx < f.w p → cy < f.h p → R cx cy = .ok (smp al f p cx cy)) → x < f.w p → y < f.h p →
      cell R (f.w p) (f.h p) x y = .ok (S p x y)) :
    Gives al (.filter (genFilter al bytes name c.vi rh rv cell process)) [c] n f.fmt f.width f.height f.props fun p x y =>
      if Wanted planes p then ((S p x y % 256 ^ bps f.fmt : Nat) : Int) else smp al f p x y := by
  intro junk
  have va := hv.frames f (at_mem hf)
  have hnp := (fmtOk va.fmt va.known).planes
  have hw : ∀ p : Nat, (p : Int) < f.fmt.numPlanes → process.getD p false = true → Wanted planes p := by
    intro p hp hproc
    rw [hpr p (by omega), decide_eq_true_eq] at hproc
    exact hproc
  obtain ⟨g, e, v, g1, g2, g3, g4, g5⟩ := genFrame_ok (align_pos hal) (name := name) (vi := c.vi) (rh := rh) (rv := rv) (cell := cell) va
    (process := process) (fun _ => checkPlanes_none.2 (fun p hp hproc => hd p (by omega) (hw p (by omega) hproc))) (G := S)
    (fun p hp hproc => hS p hp (hw p hp hproc)) junk
  refine ⟨g, frame_ok ?_ (fun hc => by rw [g1]; exact hv.fmt f (at_mem hf) hc) (fun hc => by rw [g2, g3]; exact hv.size f (at_mem hf) hc),
    v, g1, g2, g3, g4, ?_⟩
  · show (getFrameFilter [c] [(0, n)] 0 n >>= fun s1 => genFrame al bytes name c.vi rh rv cell process s1 junk) = _
    rw [get_ok (i := 0) rfl hv (by simp) hf, Res.bind_ok, hb, e]
  · intro p x y hp hx hy
    rw [g5 p x y hp hx hy, hpr p (by omega)]
    dsimp only
    by_cases w : Wanted planes p
    · rw [decide_eq_true w, if_pos rfl, if_pos w]
    · rw [decide_eq_false w, if_neg w]; rfl

/-- A frame that is too small. -/
theorem gen_small {al : Nat} {name : String} {rh rv : Option Nat}
    {cell : (Nat → Nat → Res Nat) → Nat → Nat → Nat → Nat → Res Nat} {c : PClip} (hv : ValidClip al c) {planes : List Int}
    {process : List Bool} {bytes : Nat} (hpr : ∀ p : Nat, p < 3 → process.getD p false = decide (Wanted planes p)) {n : Nat} {f : Frm}
    (hf : at? c n = some f) (hvar : c.vi.width = 0 ∨ c.vi.height = 0)
    (hd : ∃ p : Nat, (p : Int) < f.fmt.numPlanes ∧ Wanted planes p ∧ checkDims rh rv (f.w p) (f.h p) ≠ none) (junk : Junk) :
    ∃ m, (Created.filter (genFilter al bytes name c.vi rh rv cell process)).frame [c] n junk = .err m := by
  have va := hv.frames f (at_mem hf)
  have hnp := (fmtOk va.fmt va.known).planes
  obtain ⟨m, e⟩ : ∃ m, checkPlanes rh rv process f.fmt.numPlanes.toNat f.w f.h = some m := by
    cases e : checkPlanes rh rv process f.fmt.numPlanes.toNat f.w f.h with
    | some m => exact ⟨m, rfl⟩
    | none =>
      obtain ⟨p, h1, h2, h3⟩ := hd
      exact absurd (checkPlanes_none.1 e p (by omega) (by rw [hpr p (by omega)]; exact decide_eq_true h2)) h3
  refine ⟨name ++ ": " ++ m, frame_err ?_⟩
  show (getFrameFilter [c] [(0, n)] 0 n >>= fun s1 => genFrame al bytes name c.vi rh rv cell process s1 junk) = _
  rw [get_ok (i := 0) rfl hv (by simp) hf, Res.bind_ok]
  unfold genFrame
  rw [if_pos hvar, e]

theorem checkDims_big {w h : Nat} : checkDims none none w h = none ↔ 4 ≤ w ∧ 4 ≤ h := by
  unfold checkDims
  by_cases c : w < 4 ∨ h < 4
  · rw [if_pos c]
    constructor
    · intro h; cases h
    · intro h; omega
  · rw [if_neg c]
    exact ⟨fun _ => by omega, fun _ => rfl⟩

theorem planeDim_eq {size ss : Int} (h : 0 ≤ size) (p : Nat) : (planeDim size ss p : Int) = planeSize size ss p := by
  unfold planeDim planeSize
  split
  · omega
  · rw [Int.natCast_ediv, Int.toNat_of_nonneg h]
    simp

/-- Creation of the filter. -/
theorem genFinish_ok {al : Nat} {c : PClip} (hv : ValidClip al c) (hw : Workable c.vi.format) (name : String) {rh rv : Option Nat}
    (cell : Kind → (Nat → Nat → Res Nat) → Nat → Nat → Nat → Nat → Res Nat) {planes : List Int} {process : List Bool}
    (hpr : ∀ p : Nat, p < 3 → process.getD p false = decide (Wanted planes p)) :
    ((0 < c.vi.width → ∀ p : Nat, (p : Int) < c.vi.format.numPlanes → Wanted planes p →
      checkDims rh rv (planeDim c.vi.width c.vi.format.subSamplingW p) (planeDim c.vi.height c.vi.format.subSamplingH p) = none) →
      ∃ k, KindOk c.vi.format k ∧ k.bytes = bps c.vi.format ∧
        genFinish al name c.vi rh rv cell process = .ok (.filter (genFilter al k.bytes name c.vi rh rv (cell k) process))) ∧
    ((0 < c.vi.width ∧ ∃ p : Nat, (p : Int) < c.vi.format.numPlanes ∧ Wanted planes p ∧
      checkDims rh rv (planeDim c.vi.width c.vi.format.subSamplingW p) (planeDim c.vi.height c.vi.format.subSamplingH p) ≠ none) →
      ∃ m, genFinish al name c.vi rh rv cell process = .err m) := by
  have hnp := (fmtOk (struct_of hv) hw.1).planes
  obtain ⟨_, _, _, i1, i2, _, _, i3⟩ := (info_iff _).1 hv.info
  constructor
  · intro h
    obtain ⟨k, hk, hkb, hko⟩ := kind_ok (struct_of hv) hw
    refine ⟨k, hko, hkb, ?_⟩
    unfold genFinish
    have : (if c.vi.width ≠ 0 ∧ c.vi.height ≠ 0 then
      checkPlanes rh rv process c.vi.format.numPlanes.toNat (planeDim c.vi.width c.vi.format.subSamplingW)
        (planeDim c.vi.height c.vi.format.subSamplingH) else none) = none := by
      split
      · next hne =>
        refine checkPlanes_none.2 fun p hp hproc => h (by omega) p (by omega) ?_
        rw [hpr p (by omega), decide_eq_true_eq] at hproc
        exact hproc
      · rfl
    rw [this]
    dsimp only
    rw [hk]
    exact create_ok hv.info
  · rintro ⟨h0, p, h1, h2, h3⟩
    unfold genFinish
    rw [if_pos (by omega)]
    cases e : checkPlanes rh rv process c.vi.format.numPlanes.toNat (planeDim c.vi.width c.vi.format.subSamplingW)
        (planeDim c.vi.height c.vi.format.subSamplingH) with
    | some m => exact ⟨_, rfl⟩
    | none => exact absurd (checkPlanes_none.1 e p (by omega) (by rw [hpr p (by omega)]; exact decide_eq_true h2)) h3

end VS.Generic
