import Verif.Pix.Example
import Verif.Format.Props

/-! # C57: FlipVertical, FlipHorizontal, Turn180, Transpose, Turn90 and Turn270 -/

namespace VS.Pix
open VS VS.Format VS.Map VS.Map.Spec VS.Pix.Spec

theorem swapFmt_false (f : VFmt) : swapFmt false f = f := rfl

/-- C57. `FlipVertical` accepts every clip and turns every plane of every frame upside down. -/
theorem C57_flip_vertical {al : Nat} (ha : AlignOk al) {c : PClip} (hv : ValidClip al c) :
    ∃ C, flipVerticalCreate al c.vi = .ok C ∧ Applies al C c false flipV := by
  refine ⟨_, create_ok hv.info, ?_⟩
  intro n f hf junk
  have hm := at_mem hf
  obtain ⟨g, e, h1, h2, h3, h4, h5, h6⟩ := flipVFrame_ok (align_pos ha) (hv.frames f hm) junk
  refine ⟨g, simple_frame hv hf e (fun hk => h2.trans (hv.fmt f hm hk)) ?_, h1, h2, h3, h4, h5, h6⟩
  intro hs
  have := hv.size f hm hs
  exact ⟨by rw [h3]; exact this.1, by rw [h4]; exact this.2⟩

theorem flipH_applies {al : Nat} (ha : AlignOk al) (flip : Bool) {c : PClip} (hv : ValidClip al c) :
    ∃ C, flipHorizontalCreate al flip c.vi = .ok C ∧ Applies al C c false (if flip then turn180 else flipH) := by
  refine ⟨_, create_ok hv.info, ?_⟩
  intro n f hf junk
  have hm := at_mem hf
  obtain ⟨g, e, h1, h2, h3, h4, h5, h6⟩ := flipHFrame_ok (align_pos ha) flip (hv.frames f hm) junk
  refine ⟨g, simple_frame hv hf e (fun hk => h2.trans (hv.fmt f hm hk)) ?_, h1, h2, h3, h4, h5, ?_⟩
  · intro hs
    have := hv.size f hm hs
    exact ⟨by rw [h3]; exact this.1, by rw [h4]; exact this.2⟩
  · intro p hp
    have := h6 p hp
    cases flip <;> exact this

/-- C57. `FlipHorizontal` accepts every clip and mirrors every plane of every frame. -/
theorem C57_flip_horizontal {al : Nat} (ha : AlignOk al) {c : PClip} (hv : ValidClip al c) :
    ∃ C, flipHorizontalCreate al false c.vi = .ok C ∧ Applies al C c false flipH := flipH_applies ha false hv

/-- C57. `Turn180` accepts every clip and rotates every plane of every frame by 180 degrees. -/
theorem C57_turn180 {al : Nat} (ha : AlignOk al) {c : PClip} (hv : ValidClip al c) :
    ∃ C, flipHorizontalCreate al true c.vi = .ok C ∧ Applies al C c false turn180 := flipH_applies ha true hv

example : AlignOk 32 ∧ ValidClip 32 exClip := ⟨Or.inl rfl, exClip_valid⟩

/-! ## Exchanging rows and columns -/

theorem documented_swap {c t b w h : Int} (d : Documented c t b w h) : Documented c t b h w := by
  unfold Documented at *
  obtain ⟨d1, d2, d3, d4, d7⟩ := d
  exact ⟨d1, d2, d4, d3, fun hc => ⟨(d7 hc).2, (d7 hc).1⟩⟩

theorem query_swap {f : VFmt} (hv : isValidVideoStruct f = true) (hk : f.colorFamily ≠ cfUndefined) :
    (queryVideoFormat f.colorFamily f.sampleType f.bitsPerSample f.subSamplingH f.subSamplingW).2 = swapFmt true f ∧
    isValidVideoStruct (swapFmt true f) = true := by
  have g := (C20_struct_check f hk).1.1 hv
  have g' : GoodVideo (swapFmt true f) := ⟨documented_swap g.1, g.2.1, g.2.2⟩
  exact ⟨congrArg Prod.snd ((C20_struct_check (swapFmt true f) hk).2.1 g'), (C20_struct_check (swapFmt true f) hk).1.2 g'⟩

/-- The picture that `Transpose`, `Turn90` and `Turn270` show. -/
theorem turned_eq (mode : TMode) : turned mode = seen mode := by
  funext i
  cases mode <;> rfl

/-- C57. `Transpose`, `Turn90` and `Turn270` accept the clips of constant format and size; each plane of each frame is the
plane of the input with rows and columns exchanged, or rotated. With the plain loops and with blocks as on x86. -/
theorem C57_transpose {al : Nat} (ha : AlignOk al) {blk : Nat → Nat × Nat} (hb : blk = blkC ∨ blk = blkSse2) (mode : TMode)
    {c : PClip} (hv : ValidClip al c) :
    ((0 < c.vi.width ∧ 0 < c.vi.height ∧ c.vi.format.colorFamily ≠ cfUndefined) →
      ∃ C, transposeCreate al blk mode c.vi = .ok C ∧ (c.vi.height * bps c.vi.format ≤ INT_MAX →
        Applies al C c true (seen mode))) ∧
    (¬ (0 < c.vi.width ∧ 0 < c.vi.height ∧ c.vi.format.colorFamily ≠ cfUndefined) →
      ∃ m, transposeCreate al blk mode c.vi = .err m) := by
  have hblk : BlkOk blk := by
    rcases hb with rfl | rfl
    · exact blkC_ok
    · exact blkSse2_ok
  constructor
  · intro hcon
    obtain ⟨i1, i2, i3, i4, i5, i6, i7, i8⟩ := (info_iff c.vi).1 hv.info
    obtain ⟨q1, q2⟩ := query_swap i1 hcon.2.2
    unfold transposeCreate
    have ec : isConstantVideoFormat { c.vi with width := c.vi.height, height := c.vi.width } = true := by
      unfold isConstantVideoFormat
      exact decide_eq_true ⟨hcon.1, hcon.2.1, hcon.2.2⟩
    simp only [ec, Bool.not_true, Bool.false_eq_true, if_false]
    rw [q1]
    refine ⟨_, create_ok ?_, ?_⟩
    · rw [info_iff]
      exact ⟨q2, i2, i3, i5, i4, i6, i7, i8.symm⟩
    · intro hrow n f hf junk
      have hm := at_mem hf
      have v := hv.frames f hm
      obtain ⟨s1, s2⟩ := hv.size f hm (by omega)
      have s3 := hv.fmt f hm hcon.2.2
      rw [← s3] at q2 hrow ⊢
      have hclip := clip_size hv ⟨hcon.1, hcon.2.1⟩
      obtain ⟨g, e, h1, h2, h3, h4, h5, h6⟩ := transposeFrame_ok (align_pos ha) (align_dvd ha) (align_le ha) hblk
        { c.vi with format := swapFmt true f.fmt, width := c.vi.height, height := c.vi.width } mode v
        ⟨q2, v.known, v.height, v.width, v.modH, v.modW, by rw [s2]; exact hrow, by omega⟩ rfl rfl rfl rfl
        s2.symm s1.symm junk
      refine ⟨g, simple_frame hv hf e (fun _ => h2) (fun _ => ⟨by rw [h3]; exact s2, by rw [h4]; exact s1⟩), h1, h2, h3, h4, h5, ?_⟩
      rw [← turned_eq]
      exact h6
  · intro h
    refine ⟨_, if_pos ?_⟩
    unfold isConstantVideoFormat
    rw [decide_eq_false (fun hh => h ⟨hh.1, hh.2.1, hh.2.2⟩)]
    rfl

example : ∃ C, transposeCreate 32 blkSse2 .turn90 exClip.vi = .ok C ∧ Applies 32 C exClip true turn90 := by
  obtain ⟨C, h1, h2⟩ := (C57_transpose (Or.inl rfl) (Or.inr rfl) .turn90 exClip_valid).1 (by decide)
  exact ⟨C, h1, h2 (by decide)⟩

/-! ## Two filters, one after the other -/

/-- A change of pictures that depends on what is seen only. -/
def Visual (T : Img → Img) : Prop := ∀ i j, 0 < i.w → 0 < i.h → i.Same j → (T i).Same (T j)

theorem visual_flipV : Visual flipV := by
  rintro i j h0 h00 ⟨h1, h2, h3⟩
  refine ⟨h1, h2, fun x y hx hy => ?_⟩
  have hx' : x < i.w := hx
  have hy' : y < i.h := hy
  show i.px x (i.h - 1 - y) = j.px x (j.h - 1 - y)
  rw [← h2]
  exact h3 _ _ (by omega) (by omega)

theorem visual_flipH : Visual flipH := by
  rintro i j h0 h00 ⟨h1, h2, h3⟩
  refine ⟨h1, h2, fun x y hx hy => ?_⟩
  have hx' : x < i.w := hx
  have hy' : y < i.h := hy
  show i.px (i.w - 1 - x) y = j.px (j.w - 1 - x) y
  rw [← h1]
  exact h3 _ _ (by omega) (by omega)

theorem visual_turn180 : Visual turn180 := by
  rintro i j h0 h00 ⟨h1, h2, h3⟩
  refine ⟨h1, h2, fun x y hx hy => ?_⟩
  have hx' : x < i.w := hx
  have hy' : y < i.h := hy
  show i.px (i.w - 1 - x) (i.h - 1 - y) = j.px (j.w - 1 - x) (j.h - 1 - y)
  rw [← h1, ← h2]
  exact h3 _ _ (by omega) (by omega)

theorem visual_transpose : Visual Spec.transpose := by
  rintro i j h0 h00 ⟨h1, h2, h3⟩
  refine ⟨h2, h1, fun x y hx hy => ?_⟩
  exact h3 _ _ hy hx

theorem visual_turn90 : Visual turn90 := by
  rintro i j h0 h00 ⟨h1, h2, h3⟩
  refine ⟨h2, h1, fun x y hx hy => ?_⟩
  have hx' : x < i.h := hx
  show i.px y (i.h - 1 - x) = j.px y (j.h - 1 - x)
  rw [← h2]
  exact h3 _ _ hy (by omega)

theorem visual_turn270 : Visual turn270 := by
  rintro i j h0 h00 ⟨h1, h2, h3⟩
  refine ⟨h2, h1, fun x y hx hy => ?_⟩
  have hy' : y < i.w := hy
  show i.px (i.w - 1 - y) x = j.px (j.w - 1 - y) x
  rw [← h1]
  exact h3 _ _ (by omega) hx

theorem swap_swap (a b : Bool) (f : VFmt) : swapFmt b (swapFmt a f) = swapFmt (a ^^ b) f := by
  cases a <;> cases b <;> rfl

theorem swap_planes (a : Bool) (f : VFmt) : (swapFmt a f).numPlanes = f.numPlanes := by cases a <;> rfl

/-- Two filters in a row. -/
theorem applies_twice {al : Nat} {A B : Created} {c d : PClip} {s1 s2 : Bool} {T U : Img → Img}
    (vd : ValidClip al d) (hd : Delivers A [c] d) (hn : d.vi.numFrames = c.vi.numFrames)
    (hA : Applies al A c s1 T) (hB : Applies al B d s2 U) (hU : Visual U) :
    Shows2 al B d c (s1 ^^ s2) (fun i => U (T i)) := by
  intro n f hlt hf junk
  obtain ⟨e, he, _⟩ := at_some vd n
  obtain ⟨junk', hj⟩ := delivers_at hd vd (by omega) he
  obtain ⟨e', a1, a2, a3, a4, a5, a6, a7⟩ := hA n f hf junk'
  have ee : e = e' := Res.ok.inj (hj.symm.trans a1)
  subst ee
  obtain ⟨g, b1, b2, b3, b4, b5, b6, b7⟩ := hB n e he junk
  refine ⟨g, b1, by rw [b3, a3, swap_swap], ?_, ?_, by rw [b6, a6], ?_⟩
  · rw [b4, a4, a5]; cases s1 <;> cases s2 <;> rfl
  · rw [b5, a4, a5]; cases s1 <;> cases s2 <;> rfl
  · intro p hp
    have hp' : (p : Int) < e.fmt.numPlanes := by rw [a3, swap_planes]; exact hp
    refine Same.trans (b7 p hp') (hU _ _ ?_ ?_ (a7 p hp))
    · have h1 := dvd_ssw a2.modW p
      have h2 := Nat.le_of_dvd a2.width h1
      exact Nat.div_pos h2 (Nat.two_pow_pos _)
    · have h1 := dvd_ssh a2.modH p
      have h2 := Nat.le_of_dvd a2.height h1
      exact Nat.div_pos h2 (Nat.two_pow_pos _)

theorem shows_congr {al : Nat} {B : Created} {c d : PClip} (hv : ValidClip al c) {s : Bool} {T U : Img → Img}
    (h : Shows2 al B d c s T) (e : ∀ i : Img, 0 < i.w → 0 < i.h → (T i).Same (U i)) : Shows2 al B d c s U := by
  intro n f hlt hf junk
  obtain ⟨g, h1, h2, h3, h4, h5, h6⟩ := h n f hlt hf junk
  refine ⟨g, h1, h2, h3, h4, h5, fun p hp => Same.trans (h6 p hp) (e _ ?_ ?_)⟩
  · have v := hv.frames f (at_mem hf)
    exact Nat.div_pos (Nat.le_of_dvd v.width (dvd_ssw v.modW p)) (Nat.two_pow_pos _)
  · have v := hv.frames f (at_mem hf)
    exact Nat.div_pos (Nat.le_of_dvd v.height (dvd_ssh v.modH p)) (Nat.two_pow_pos _)

/-- The clip that a filter of this kind makes is valid. -/
theorem applies_valid {al : Nat} {F : PFilter} {c d : PClip} {s : Bool} {T : Img → Img} (hv : ValidClip al c)
    (hF : create F = .ok (.filter F)) (hn : F.vi.numFrames = c.vi.numFrames) (hA : Applies al (.filter F) c s T)
    (hd : Delivers (.filter F) [c] d) : ValidClip al d ∧ d.vi = F.vi := by
  refine ⟨delivers_valid hd (create_eq_ok hF).2 (hn ▸ hv.range) ?_, (Option.some.inj hd.vi).symm⟩
  intro n junk g hg
  obtain ⟨f, hf, hm⟩ := at_some hv n
  obtain ⟨g', e, h1, _⟩ := hA n f hf junk
  have : g = g' := Res.ok.inj (hg.symm.trans e)
  exact this ▸ h1

theorem flips_twice {al : Nat} {A B : Created} {c d : PClip} {F : VInfo → Frm → Junk → Res Frm}
    {G : VInfo → Frm → Junk → Res Frm} {T U : Img → Img} (hv : ValidClip al c)
    (hA : create (simple c.vi (F c.vi)) = .ok A) (hd : Delivers A [c] d) (hB : create (simple d.vi (G d.vi)) = .ok B)
    (aA : ∃ C, create (simple c.vi (F c.vi)) = .ok C ∧ Applies al C c false T)
    (aB : ValidClip al d → ∃ C, create (simple d.vi (G d.vi)) = .ok C ∧ Applies al C d false U) (hU : Visual U) :
    Shows2 al B d c false (fun i => U (T i)) := by
  obtain ⟨C, hC, aA⟩ := aA
  have : A = C := Res.ok.inj (hA.symm.trans hC)
  subst this
  obtain ⟨rfl, h0⟩ := create_eq_ok hA
  obtain ⟨vd, ed⟩ := applies_valid hv hA rfl aA hd
  obtain ⟨D, hD, aB⟩ := aB vd
  have : B = D := Res.ok.inj (hB.symm.trans hD)
  subst this
  exact applies_twice vd hd (by rw [ed]; rfl) aA aB hU

/-- C57. `FlipVertical` twice is the original clip. -/
theorem C57_flip_vertical_twice {al : Nat} (ha : AlignOk al) {A B : Created} {c d : PClip} (hv : ValidClip al c)
    (hA : flipVerticalCreate al c.vi = .ok A) (hd : Delivers A [c] d) (hB : flipVerticalCreate al d.vi = .ok B) :
    Shows2 al B d c false id := by
  refine shows_congr hv (flips_twice (F := fun _ => flipVFrame al) (G := fun _ => flipVFrame al) hv hA hd hB
    (C57_flip_vertical ha hv) (fun vd => C57_flip_vertical ha vd) visual_flipV) ?_
  intro i h0 h00
  refine ⟨rfl, rfl, fun x y hx hy => ?_⟩
  have hy' : y < i.h := hy
  show i.px x (i.h - 1 - (i.h - 1 - y)) = i.px x y
  rw [show i.h - 1 - (i.h - 1 - y) = y by omega]

/-- C57. `FlipHorizontal` twice is the original clip. -/
theorem C57_flip_horizontal_twice {al : Nat} (ha : AlignOk al) {A B : Created} {c d : PClip} (hv : ValidClip al c)
    (hA : flipHorizontalCreate al false c.vi = .ok A) (hd : Delivers A [c] d)
    (hB : flipHorizontalCreate al false d.vi = .ok B) : Shows2 al B d c false id := by
  refine shows_congr hv (flips_twice (F := fun _ => flipHFrame al false) (G := fun _ => flipHFrame al false) hv hA hd hB
    (C57_flip_horizontal ha hv) (fun vd => C57_flip_horizontal ha vd) visual_flipH) ?_
  intro i h0 h00
  refine ⟨rfl, rfl, fun x y hx hy => ?_⟩
  have hx' : x < i.w := hx
  show i.px (i.w - 1 - (i.w - 1 - x)) y = i.px x y
  rw [show i.w - 1 - (i.w - 1 - x) = x by omega]

/-- C57. `FlipVertical` and `FlipHorizontal`, one after the other, is `Turn180`. -/
theorem C57_turn180_flips {al : Nat} (ha : AlignOk al) {A B : Created} {c d : PClip} (hv : ValidClip al c)
    (hA : flipVerticalCreate al c.vi = .ok A) (hd : Delivers A [c] d)
    (hB : flipHorizontalCreate al false d.vi = .ok B) : Shows2 al B d c false turn180 :=
  flips_twice (T := flipV) (U := flipH) (F := fun _ => flipVFrame al) (G := fun _ => flipHFrame al false) hv hA hd hB
    (C57_flip_vertical ha hv) (fun vd => C57_flip_horizontal ha vd) visual_flipH

/-- C57. `Turn180` twice is the original clip. -/
theorem C57_turn180_twice {al : Nat} (ha : AlignOk al) {A B : Created} {c d : PClip} (hv : ValidClip al c)
    (hA : flipHorizontalCreate al true c.vi = .ok A) (hd : Delivers A [c] d)
    (hB : flipHorizontalCreate al true d.vi = .ok B) : Shows2 al B d c false id := by
  refine shows_congr hv (flips_twice (F := fun _ => flipHFrame al true) (G := fun _ => flipHFrame al true) hv hA hd hB
    (C57_turn180 ha hv) (fun vd => C57_turn180 ha vd) visual_turn180) ?_
  intro i h0 h00
  refine ⟨rfl, rfl, fun x y hx hy => ?_⟩
  have hx' : x < i.w := hx
  have hy' : y < i.h := hy
  show i.px (i.w - 1 - (i.w - 1 - x)) (i.h - 1 - (i.h - 1 - y)) = i.px x y
  rw [show i.w - 1 - (i.w - 1 - x) = x by omega, show i.h - 1 - (i.h - 1 - y) = y by omega]

theorem visual_seen (m : TMode) : Visual (seen m) := by
  cases m
  · exact visual_transpose
  · exact visual_turn90
  · exact visual_turn270

theorem transpose_inv {al : Nat} {blk : Nat → Nat × Nat} {m : TMode} {vi : VInfo} {A : Created}
    (hA : transposeCreate al blk m vi = .ok A) : ∃ F, A = .filter F ∧ create F = .ok (.filter F) ∧
      F.vi.format = (queryVideoFormat vi.format.colorFamily vi.format.sampleType vi.format.bitsPerSample vi.format.subSamplingH
        vi.format.subSamplingW).2 ∧ F.vi.width = vi.height ∧ F.vi.height = vi.width ∧ F.vi.numFrames = vi.numFrames := by
  unfold transposeCreate at hA
  simp only at hA
  split at hA
  · exact absurd hA (by simp)
  obtain ⟨rfl, h0⟩ := create_eq_ok hA
  exact ⟨_, rfl, hA, rfl, rfl, rfl, rfl⟩

theorem turns {al : Nat} (ha : AlignOk al) {blk : Nat → Nat × Nat} (hb : blk = blkC ∨ blk = blkSse2) {m1 m2 : TMode}
    {A B : Created} {c d : PClip} (hv : ValidClip al c) (hA : transposeCreate al blk m1 c.vi = .ok A) (hd : Delivers A [c] d)
    (hB : transposeCreate al blk m2 d.vi = .ok B) (hrow : c.vi.height * bps c.vi.format ≤ INT_MAX) :
    Shows2 al B d c false (fun i => seen m2 (seen m1 i)) := by
  obtain ⟨a1, a2⟩ := C57_transpose ha hb m1 hv
  by_cases hcon : 0 < c.vi.width ∧ 0 < c.vi.height ∧ c.vi.format.colorFamily ≠ cfUndefined
  · obtain ⟨C, hC, aA⟩ := a1 hcon
    have aA := aA hrow
    have : A = C := Res.ok.inj (hA.symm.trans hC)
    subst this
    obtain ⟨F, rfl, h0, f1, f2, f3, f4⟩ := transpose_inv hA
    obtain ⟨vd, ed⟩ := applies_valid hv h0 f4 aA hd
    have i1 := ((info_iff c.vi).1 hv.info).1
    have q1 := (query_swap i1 hcon.2.2).1
    have ef : d.vi.format = swapFmt true c.vi.format := by rw [ed, f1, q1]
    have ew : d.vi.width = c.vi.height := by rw [ed, f2]
    have eh : d.vi.height = c.vi.width := by rw [ed, f3]
    obtain ⟨f, hf, hm⟩ := at_some hv 0
    have v := hv.frames f hm
    have hs := hv.size f hm (by omega)
    have hfm := hv.fmt f hm hcon.2.2
    obtain ⟨D, hD, aB⟩ := (C57_transpose ha hb m2 vd).1 (by
      rw [ew, eh, ef]; exact ⟨hcon.2.1, hcon.1, hcon.2.2⟩)
    have aB := aB (by
      rw [eh, ef, ← hs.1, ← hfm]
      exact v.row)
    have : B = D := Res.ok.inj (hB.symm.trans hD)
    subst this
    exact applies_twice vd hd (by rw [ed, f4]) aA aB (visual_seen m2)
  · obtain ⟨m, hm⟩ := a2 hcon
    rw [hm] at hA
    exact absurd hA (by simp)

/-- C57. `Transpose` twice, `Turn90` then `Turn270` and `Turn270` then `Turn90` are the original clip. -/
theorem C57_turn_back {al : Nat} (ha : AlignOk al) {blk : Nat → Nat × Nat} (hb : blk = blkC ∨ blk = blkSse2) {m1 m2 : TMode}
    (hm : (m1, m2) = (.transpose, .transpose) ∨ (m1, m2) = (.turn90, .turn270) ∨ (m1, m2) = (.turn270, .turn90))
    {A B : Created} {c d : PClip} (hv : ValidClip al c) (hA : transposeCreate al blk m1 c.vi = .ok A) (hd : Delivers A [c] d)
    (hB : transposeCreate al blk m2 d.vi = .ok B) (hrow : c.vi.height * bps c.vi.format ≤ INT_MAX) :
    Shows2 al B d c false id := by
  refine shows_congr hv (turns ha hb hv hA hd hB hrow) ?_
  intro i h0 h00
  rcases hm with hm | hm | hm <;> obtain ⟨rfl, rfl⟩ := Prod.mk.inj hm
  · exact ⟨rfl, rfl, fun _ _ _ _ => rfl⟩
  · refine ⟨rfl, rfl, fun x y hx hy => ?_⟩
    have hy' : y < i.h := hy
    show i.px x (i.h - 1 - (i.h - 1 - y)) = i.px x y
    rw [show i.h - 1 - (i.h - 1 - y) = y by omega]
  · refine ⟨rfl, rfl, fun x y hx hy => ?_⟩
    have hx' : x < i.w := hx
    show i.px (i.w - 1 - (i.w - 1 - x)) y = i.px x y
    rw [show i.w - 1 - (i.w - 1 - x) = x by omega]

/-- C57. `Turn90` twice and `Turn270` twice are `Turn180`. -/
theorem C57_turn_twice {al : Nat} (ha : AlignOk al) {blk : Nat → Nat × Nat} (hb : blk = blkC ∨ blk = blkSse2) {m : TMode}
    (hm : m ≠ .transpose) {A B : Created} {c d : PClip} (hv : ValidClip al c) (hA : transposeCreate al blk m c.vi = .ok A)
    (hd : Delivers A [c] d) (hB : transposeCreate al blk m d.vi = .ok B)
    (hrow : c.vi.height * bps c.vi.format ≤ INT_MAX) : Shows2 al B d c false turn180 := by
  refine shows_congr hv (turns ha hb hv hA hd hB hrow) ?_
  intro i h0 h00
  cases m
  · exact absurd rfl hm
  · exact ⟨rfl, rfl, fun _ _ _ _ => rfl⟩
  · exact ⟨rfl, rfl, fun _ _ _ _ => rfl⟩

/-- There are such clips. -/
example : ∃ A d, flipVerticalCreate 32 exClip.vi = .ok A ∧ Delivers A [exClip] d := by
  obtain ⟨C, h1, h2⟩ := C57_flip_vertical (Or.inl rfl) exClip_valid
  obtain ⟨rfl, h0⟩ := create_eq_ok h1
  obtain ⟨d, hd⟩ := exists_delivers (c := .filter (simple exClip.vi (flipVFrame 32))) (clips := [exClip]) rfl (by decide) (fun n => by
    obtain ⟨f, hf, _⟩ := at_some exClip_valid n
    obtain ⟨g, e, _⟩ := h2 n f hf (fun _ _ => 0)
    exact ⟨g, e⟩)
  exact ⟨_, d, h1, hd⟩

example : ∃ A d, transposeCreate 32 blkC .turn270 exClip.vi = .ok A ∧ Delivers A [exClip] d := by
  obtain ⟨C, h1, h2⟩ := (C57_transpose (Or.inl rfl) (Or.inl rfl) .turn270 exClip_valid).1 (by decide)
  have h2 := h2 (by decide)
  obtain ⟨F, rfl, h0, _, _, _, f4⟩ := transpose_inv h1
  obtain ⟨d, hd⟩ := exists_delivers (c := .filter F) (clips := [exClip]) rfl (by rw [f4]; decide) (fun n => by
    obtain ⟨f, hf, _⟩ := at_some exClip_valid n
    obtain ⟨g, e, _⟩ := h2 n f hf (fun _ _ => 0)
    exact ⟨g, e⟩)
  exact ⟨_, d, h1, hd⟩

end VS.Pix
