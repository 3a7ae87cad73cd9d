import Verif.Blur.LemmasGraph

/-! # Clips with three planes -/

namespace VS.Blur
open VS VS.Format VS.Map VS.Map.Spec VS.Pix VS.Pix.Spec VS.Point VS.Point.Spec VS.Pixel VS.Blur.Spec

/-- Plane `q` of a clip with the info `v` can be used as plane `p`. -/
structure Part (vi v : VInfo) (p q : Nat) : Prop where
  con : isConstantVideoFormat v = true
  valid : isValidVideoInfo v = .ok true
  inside : (q : Int) < v.format.numPlanes
  width : planeWidth v q = planeWidth vi p
  height : planeHeight v q = planeHeight vi p
  type : v.format.sampleType = vi.format.sampleType
  bits : v.format.bitsPerSample = vi.format.bitsPerSample
  num : v.fpsNum = vi.fpsNum
  den : v.fpsDen = vi.fpsDen
  frames : v.numFrames = vi.numFrames

theorem Part.bad {vi v : VInfo} {p q : Nat} (h : Part vi v p q) : badPlane v q = false := by
  unfold badPlane
  refine decide_eq_false ?_
  have := h.inside
  rintro (c | c)
  · omega
  · exact absurd c.2 (by omega)

theorem part_self {al : Nat} {c : PClip} (hv : ValidClip al c) (hc : isConstantVideoFormat c.vi = true) {p : Nat} (hp : (p : Int) < c.vi.format.numPlanes) :
    Part c.vi c.vi p p := ⟨hc, hv.info, hp, rfl, rfl, rfl, rfl, rfl, rfl, rfl⟩

/-- Three planes put together. -/
theorem three_create {al : Nat} {c : PClip} (hv : ValidClip al c) (hcon : Constant c.vi) (h3 : c.vi.format.numPlanes = 3)
    {v0 v1 v2 : VInfo} {q1 q2 : Nat} (p0 : Part c.vi v0 0 0) (p1 : Part c.vi v1 1 q1) (p2 : Part c.vi v2 2 q2) :
    ∃ f, shufflePlanesCreate [v0, v1, v2] [0, (q1 : Int), (q2 : Int)] c.vi.format.colorFamily false = .ok (.filter f) ∧ f.vi = c.vi ∧
      isValidVideoInfo f.vi = .ok true := by
  have hc := (constant_iff _).2 hcon
  obtain ⟨i1, i2, i3, i4, i5, i6, i7, i8⟩ := (info_iff c.vi).1 hv.info
  have hgood := (C20_struct_check c.vi.format hcon.2.2).1.1 i1
  obtain ⟨f0, hf0, hm0⟩ := at_some hv 0
  have vf := hv.frames f0 hm0
  obtain ⟨s1, s2, s3⟩ := plane_size hv hc hm0 1
  obtain ⟨t1, t2, t3⟩ := plane_size hv hc hm0 0
  obtain ⟨r1, r2, r3, r4⟩ := row_plane vf 1
  have p12 : planeWidth c.vi 2 = planeWidth c.vi 1 ∧ planeHeight c.vi 2 = planeHeight c.vi 1 := by
    unfold planeWidth planeHeight ssw ssh; simp
  have hfam : family (int64ToIntS c.vi.format.colorFamily) = c.vi.format.colorFamily ∧ c.vi.format.colorFamily ≠ cfGray ∧
      (c.vi.format.colorFamily = cfRGB ∨ c.vi.format.colorFamily = cfYUV) := by
    have hg := hgood.2.2
    have hne : c.vi.format.colorFamily ≠ cfGray := fun hh => by rw [if_pos hh] at hg; omega
    rcases hgood.1.1 with h | h | h
    · exact absurd h hne
    · rw [h]; exact ⟨by decide, by decide, Or.inl rfl⟩
    · rw [h]; exact ⟨by decide, by decide, Or.inr rfl⟩
  have ssl : c.vi.format.subSamplingW.toNat < 6 ∧ c.vi.format.subSamplingH.toNat < 6 ∧ 0 ≤ c.vi.format.subSamplingW ∧ 0 ≤ c.vi.format.subSamplingH := by
    obtain ⟨_, _, hw, hh, _⟩ := hgood.1
    omega
  have eW : findSubSampling (planeWidth v0 0) (planeWidth v1 q1) 0 6 = some c.vi.format.subSamplingW.toNat := by
    rw [p0.width, p1.width, t1, s1]
    have hdv := vf.modW
    rw [t3] at hdv
    have : (f0.w 0 : Int) = f0.w 1 * 2 ^ c.vi.format.subSamplingW.toNat := by
      have : f0.w 0 = f0.w 1 * 2 ^ c.vi.format.subSamplingW.toNat := by
        unfold Frm.w ssw
        rw [if_pos rfl, if_neg (by omega), t3, Nat.pow_zero, Nat.div_one, Nat.div_mul_cancel hdv]
      rw [this]; simp
    rw [this]
    exact findSub_eq (by omega) (by omega) (by omega)
  have eH : findSubSampling (planeHeight v0 0) (planeHeight v1 q1) 0 6 = some c.vi.format.subSamplingH.toNat := by
    rw [p0.height, p1.height, t2, s2]
    have hdv := vf.modH
    rw [t3] at hdv
    have : (f0.h 0 : Int) = f0.h 1 * 2 ^ c.vi.format.subSamplingH.toNat := by
      have : f0.h 0 = f0.h 1 * 2 ^ c.vi.format.subSamplingH.toNat := by
        unfold Frm.h ssh
        rw [if_pos rfl, if_neg (by omega), t3, Nat.pow_zero, Nat.div_one, Nat.div_mul_cancel hdv]
      rw [this]; simp
    rw [this]
    exact findSub_eq (by omega) (by omega) (by omega)
  have hq : (queryVideoFormat c.vi.format.colorFamily v0.format.sampleType v0.format.bitsPerSample
      (c.vi.format.subSamplingW.toNat : Int) (c.vi.format.subSamplingH.toNat : Int)).2 = c.vi.format := by
    rw [p0.type, p0.bits, Int.toNat_of_nonneg ssl.2.2.1, Int.toNat_of_nonneg ssl.2.2.2, (C20_struct_check c.vi.format hcon.2.2).2.1 hgood]
  have w0 : planeWidth c.vi 0 = c.vi.width ∧ planeHeight c.vi 0 = c.vi.height := by
    unfold planeWidth planeHeight ssw ssh; simp
  have einfo : shuffleInfo c.vi.format.colorFamily v0 v1 v2 0 q1 q2 = .ok c.vi := by
    unfold shuffleInfo
    rw [if_neg (by rw [p1.width, p1.height, p2.width, p2.height]; omega), eH, eW]
    simp only
    rw [if_neg (by rw [p0.type, p1.type, p2.type, p0.bits, p1.bits, p2.bits]; simp), if_neg, hq, p0.width, p0.height, w0.1, w0.2, p0.frames,
      p1.frames, p2.frames, Int.max_self, Int.max_self]
    · have h1 := p0.num
      have h2 := p0.den
      cases v0
      simp only at h1 h2
      subst h1 h2
      rfl
    · rintro ⟨hr, hh⟩
      have := hgood.1.2.2.2.2 (by rw [hr]; decide)
      omega
  refine ⟨shuffleFilter c.vi 0 1 2 0 0 q1 q2, ?_, rfl, hv.info⟩
  have hcr := create_ok (f := shuffleFilter c.vi 0 1 2 0 0 q1 q2) hv.info
  unfold shufflePlanesCreate
  simp only [hfam.1]
  rw [if_neg (by rcases hfam.2.2 with h | h <;> simp [h]), if_neg hfam.2.1]
  have b0 := p0.bad
  have x0 : badPlane v0 0 = false := b0
  simp only [List.length_cons, List.length_nil, Nat.reduceAdd, Nat.lt_irrefl, gt_iff_lt, if_false, List.any_cons, List.any_nil,
    p0.con, p1.con, p2.con, Bool.not_true, Bool.or_false, Bool.false_eq_true, ge_iff_le, Nat.reduceLeDiff, if_true, List.getD_cons_zero,
    List.getD_cons_succ, List.getElem?_cons_zero, List.getElem?_cons_succ, x0, p1.bad, p2.bad, Bool.and_false, hfam.2.1, Int.toNat_zero,
    Int.toNat_natCast]
  rw [einfo, Res.bind_ok]
  exact hcr

/-- Frame `k` has in plane `q` the size of plane `p` of `f` and the samples `S f x y`. -/
def PartOf (al : Nat) (p q : Nat) (S : Frm → Nat → Nat → Nat) (f k : Frm) : Prop :=
  k.props = f.props ∧ k.w q = f.w p ∧ k.h q = f.h p ∧ ∀ x y, x < f.w p → y < f.h p → smp al k q x y = S f x y

/-- The node that puts three planes together. -/
theorem makes_three {al : Nat} {c : PClip} (hv : ValidClip al c) (hcon : Constant c.vi) (h3 : c.vi.format.numPlanes = 3)
    {g0 g1 g2 : Graph} {v0 v1 v2 : VInfo} {q1 q2 : Nat} (p0 : Part c.vi v0 0 0) (p1 : Part c.vi v1 1 q1) (p2 : Part c.vi v2 2 q2)
    {S0 S1 S2 : Frm → Nat → Nat → Nat} (m0 : Makes al c g0 v0 (PartOf al 0 0 S0)) (m1 : Makes al c g1 v1 (PartOf al 1 q1 S1))
    (m2 : Makes al c g2 v2 (PartOf al 2 q2 S2)) {f : PFilter}
    (hf : shufflePlanesCreate [v0, v1, v2] [0, (q1 : Int), (q2 : Int)] c.vi.format.colorFamily false = .ok (.filter f)) (hfv : f.vi = c.vi) :
    Makes al c (.three (.filter f) g0 g1 g2) c.vi (fun a k => k.fmt = a.fmt ∧ k.width = a.width ∧ k.height = a.height ∧ k.props = a.props ∧
      ∀ p x y : Nat, (p : Int) < a.fmt.numPlanes → x < a.w p → y < a.h p →
        smp al k p x y = (if p = 0 then S0 else if p = 1 then S1 else S2) a x y) := by
  have hc := (constant_iff _).2 hcon
  obtain ⟨i0, n0, e0⟩ := m0
  obtain ⟨i1, n1, e1⟩ := m1
  obtain ⟨i2, n2, e2⟩ := m2
  refine ⟨congrArg some hfv, rfl, ?_⟩
  intro j
  obtain ⟨d0, a1, a2, a3, a4⟩ := e0 (fun l => j (0 :: l))
  obtain ⟨d1, b1, b2, b3, b4⟩ := e1 (fun l => j (1 :: l))
  obtain ⟨d2, c1, c2, c3, c4⟩ := e2 (fun l => j (2 :: l))
  subst a3 b3 c3
  have frame : ∀ (n : Nat) k0 k1 k2, at? d0 n = some k0 → at? d1 n = some k1 → at? d2 n = some k2 → ∀ junk,
      ∃ g, f.frame [d0, d1, d2] n junk = .ok g ∧ Valid al g ∧ g.props = k0.props ∧
        (3 = g.fmt.numPlanes → (img al g 0).Same (img al k0 0) ∧ (img al g 1).Same (img al k1 q1) ∧ (img al g 2).Same (img al k2 q2)) := by
    intro n k0 k1 k2 h0 h1 h2 junk
    obtain ⟨g, m1, m2, m3, ⟨fp, m4, m5⟩, m6⟩ := C59_shuffle (al := al) (clips := [d0, d1, d2]) (prop := none)
      (by simp [a2, b2, c2]) (planes := [0, (q1 : Int), (q2 : Int)]) (cf := c.vi.format.colorFamily) hf (n := n) (fs := [k0, k1, k2])
      (by simp [h0, h1, h2]) (by intro vi hvi; rw [← Option.some.inj hvi, hfv]; exact hcon.2.2) junk
    have efp : k0 = fp := Option.some.inj m4
    subst efp
    refine ⟨g, m1, m2, m5, ?_⟩
    intro h3g
    obtain ⟨x0, y0, _, _, _, _, z0⟩ := m6 0 (by omega)
    obtain ⟨x1, y1, _, _, _, _, z1⟩ := m6 1 (by omega)
    obtain ⟨x2, y2, _, _, _, _, z2⟩ := m6 2 (by omega)
    have t0 : k0 = x0 := Option.some.inj y0
    have t1 : k1 = x1 := Option.some.inj y1
    have t2 : k2 = x2 := Option.some.inj y2
    subst t0 t1 t2
    exact ⟨z0, z1, z2⟩
  obtain ⟨e, e1, e2, e3, e4⟩ := evalOne_ok (al := al) (f := f) (clips := [d0, d1, d2]) (by rw [hfv]; exact hv.info) (by rw [hfv]; exact hv.range) (by
    intro n junk
    obtain ⟨k0, h0, _⟩ := at_some a2 n
    obtain ⟨k1, h1, _⟩ := at_some b2 n
    obtain ⟨k2, h2, _⟩ := at_some c2 n
    obtain ⟨g, x1, x2, _⟩ := frame n k0 k1 k2 h0 h1 h2 junk
    exact ⟨g, x1, x2⟩) (j [])
  refine ⟨e, ?_, e2, e3.trans hfv, ?_⟩
  · show ((g0.eval c (fun l => j (0 :: l))) >>= fun d0 => (g1.eval c (fun l => j (1 :: l))) >>= fun d1 =>
      (g2.eval c (fun l => j (2 :: l))) >>= fun d2 => match Graph.eval.outInfo' (.filter f) [d0.vi, d1.vi, d2.vi] with
      | some vi => evalOne (.filter f) vi [d0, d1, d2] (j [])
      | none => .ub) = _
    rw [a1, Res.bind_ok, b1, Res.bind_ok, c1, Res.bind_ok]
    exact e1
  · intro n a ha
    obtain ⟨k0, f0, u0⟩ := a4 n a ha
    obtain ⟨k1, f1, u1⟩ := b4 n a ha
    obtain ⟨k2, f2, u2⟩ := c4 n a ha
    obtain ⟨k, hk⟩ := frame_of hv e2 (by rw [e3, hfv]) ha
    obtain ⟨k', r1, r2, r3, r4⟩ := frame n k0 k1 k2 (at_of f0) (at_of f1) (at_of f2) (j [] n)
    have : k = k' := Res.ok.inj ((e4 n k hk).symm.trans r1)
    subst this
    have hm := List.mem_of_getElem? ha
    have hmk := List.mem_of_getElem? hk
    have kf : k.fmt = c.vi.format := by rw [e2.fmt k hmk (by rw [e3, hfv]; exact hcon.2.2), e3, hfv]
    have af : a.fmt = c.vi.format := hv.fmt a hm hcon.2.2
    have kz := e2.size k hmk (by rw [e3, hfv]; have := hcon.1; omega)
    have az := hv.size a hm (by have := hcon.1; omega)
    rw [e3, hfv] at kz
    have hw : k.width = a.width := by omega
    have hh : k.height = a.height := by omega
    refine ⟨k, hk, kf.trans af.symm, hw, hh, r3.trans u0.1, ?_⟩
    obtain ⟨z0, z1, z2⟩ := r4 (by rw [kf, h3])
    intro p x y hp hx hy
    rw [af, h3] at hp
    have hwp : k.w p = a.w p := w_eq (kf.trans af.symm) hw p
    have hhp : k.h p = a.h p := h_eq (kf.trans af.symm) hh p
    have : p = 0 ∨ p = 1 ∨ p = 2 := by omega
    rcases this with rfl | rfl | rfl
    · rw [if_pos rfl, same_smp z0 (by omega) (by omega), u0.2.2.2 x y hx hy]
    · rw [if_neg (by decide), if_pos rfl, same_smp z1 (by omega) (by omega), u1.2.2.2 x y hx hy]
    · rw [if_neg (by decide), if_neg (by decide), same_smp z2 (by omega) (by omega), u2.2.2.2 x y hx hy]

/-! ## One of the planes -/

theorem Makes.info {al : Nat} {c : PClip} {g : Graph} {vi : VInfo} {R : Frm → Frm → Prop} (h : Makes al c g vi R) :
    Makes al c g vi (fun f k => R f k ∧ (vi.format.colorFamily ≠ cfUndefined → k.fmt = vi.format) ∧
      (vi.width ≠ 0 ∨ vi.height ≠ 0 → (k.width : Int) = vi.width ∧ (k.height : Int) = vi.height)) := by
  obtain ⟨m1, m2, m3⟩ := h
  refine ⟨m1, m2, fun j => ?_⟩
  obtain ⟨d, d1, d2, d3, d4⟩ := m3 j
  refine ⟨d, d1, d2, d3, fun n f hf => ?_⟩
  obtain ⟨k, k1, k2⟩ := d4 n f hf
  have hm := List.mem_of_getElem? k1
  exact ⟨k, k1, k2, d3 ▸ d2.fmt k hm, d3 ▸ d2.size k hm⟩

/-- `ShufflePlanes` with one plane. -/
theorem makes_gray {al : Nat} {c : PClip} (hv : ValidClip al c) (hcon : Constant c.vi) (hwk : Workable c.vi.format) {p : Nat}
    (hp : (p : Int) < c.vi.format.numPlanes) :
    ∃ C v fm w h, shufflePlanesCreate [c.vi] [(p : Int)] cfGray false = .ok C ∧ Gray fm ∧ InfoOk c fm w h v ∧ Part c.vi v p 0 ∧
      (∀ F r n, rowFn F fm r n = rowFn F c.vi.format r n) ∧ bps fm = bps c.vi.format ∧ (∀ f ∈ c.frames, f.w p = w ∧ f.h p = h) ∧
      Makes al c (.one C .input) v (Plane al fm w h (fun f x y => smp al f p x y)) := by
  have hc := (constant_iff _).2 hcon
  obtain ⟨G, hG, g1, g2, g3, g4, g5⟩ := gray_create hv hc hp
  have hFv : G.vi = { c.vi with
      format := (queryVideoFormat cfGray c.vi.format.sampleType c.vi.format.bitsPerSample 0 0).2
      width := planeWidth c.vi p, height := planeHeight c.vi p } := by
    obtain ⟨-, v0, v1, v2, n1, n2, -, -, r0, -, -, -, hcase⟩ := shuffle_inv hG
    have ev : c.vi = v0 := Option.some.inj r0
    subst ev
    rcases hcase with ⟨hg, hcr⟩ | ⟨hg, _⟩
    · obtain ⟨he, _⟩ := create_eq_ok hcr
      rw [Created.filter.inj he]
      rfl
    · exact absurd (by decide) hg
  obtain ⟨i1, i2, i3, i4, i5, i6, i7, i8⟩ := (info_iff c.vi).1 hv.info
  have kf := gray_known i1 hcon.2.2
  obtain ⟨o1, o2, o3, o4, o5, o6, o7⟩ := query_ok (c := cfGray) (t := c.vi.format.sampleType) (b := c.vi.format.bitsPerSample)
    (w := 0) (h := 0) (by rw [kf]; decide)
  obtain ⟨f0, hf0, hm0⟩ := at_some hv 0
  obtain ⟨s1, s2, s3⟩ := plane_size hv hc hm0 p
  obtain ⟨r1, r2, r3, r4⟩ := row_plane (hv.frames f0 hm0) p
  generalize hfm : (queryVideoFormat cfGray c.vi.format.sampleType c.vi.format.bitsPerSample 0 0).2 = fm at *
  rw [if_pos rfl] at o7
  have hgw : G.vi.width = f0.w p := g4.trans s1
  have hgh : G.vi.height = f0.h p := g5.trans s2
  have pw : planeWidth G.vi 0 = G.vi.width ∧ planeHeight G.vi 0 = G.vi.height := by unfold planeWidth planeHeight ssw ssh; simp
  have hGc : Constant G.vi := ⟨by omega, by omega, by rw [g3, o2]; decide⟩
  refine ⟨_, G.vi, fm, f0.w p, f0.h p, hG, ⟨o1, ⟨by rw [o2]; decide, by rw [o3, o4]; exact hwk.2.1, by rw [o3, o4]; exact hwk.2.2⟩, o7, o5, o6⟩,
    ⟨g1, g3, hgw, hgh⟩, ⟨(constant_iff _).2 hGc, g1, by rw [g3, o7]; decide, by rw [pw.1, g4], by rw [pw.2, g5], by rw [g3, o3], by rw [g3, o4],
      by rw [hFv], by rw [hFv], g2⟩, ?_, ?_, ?_, ?_⟩
  · intro F r n
    unfold rowFn
    rw [o3, o4]
  · exact bytes_eq o1 (by rw [o2]; decide) i1 hcon.2.2 o4
  · intro f hf
    obtain ⟨t1, t2, t3⟩ := plane_size hv hc hf p
    omega
  · refine (makes_one hv (makes_input hv) (S := fun b k => k.props = b.props ∧ (img al k 0).Same (img al b p)) g1 g2 ?_).info.mono hv ?_
    · intro d vd ed n s hs junk
      rw [← ed] at hG
      obtain ⟨k, k1, k2, -, -, -, k3, k4⟩ := gray_frame vd hG hs junk
      exact ⟨k, k1, k2, k3, k4⟩
    · rintro f k hf vk ⟨⟨b, rfl, k3, k4⟩, k5, k6⟩
      have ks := k6 (by omega)
      refine ⟨(k5 hGc.2.2).trans g3, by omega, by omega, k3, fun x y hx hy => ?_⟩
      exact same_smp k4 (by rw [w_zero]; omega) (by rw [h_zero]; omega)

variable (F : Floats)

/-- The clip for plane `p`. -/
theorem makes_part {al : Nat} (ha : AlignOk al) {blk : Nat → Nat × Nat} (hb : blk = blkC ∨ blk = blkSse2) {c : PClip} (hv : ValidClip al c)
    (hcon : Constant c.vi) (hwk : Workable c.vi.format) (hrow : c.vi.height * bps c.vi.format ≤ INT_MAX) {p : Nat}
    (hp : (p : Int) < c.vi.format.numPlanes) {process : List Bool} {r n r' n' : Nat} (hr : r ≤ 30000) (hwr : c.vi.width + r ≤ 2 ^ 31)
    (hr' : r' ≤ 30000) (hhr : c.vi.height + r' ≤ 2 ^ 31) :
    ∃ g v, planeClip F al blk c.vi process r n r' n' p = .ok g ∧ Part c.vi v p (if process.getD p false then 0 else p) ∧
      Makes al c g v (PartOf al p (if process.getD p false then 0 else p) (fun f => if process.getD p false then
        blurred (rowFn F f.fmt r n) (rowFn F f.fmt r' n') (f.w p) (f.h p) (fun x y => smp al f p x y) else fun x y => smp al f p x y)) := by
  have hc := (constant_iff _).2 hcon
  unfold planeClip
  by_cases hpr : process.getD p false = true
  · simp only [hpr, if_true]
    obtain ⟨C, v, fm, w, h, e, hgr, hi, hpart, hfn, hbps, hsz, hm⟩ := makes_gray hv hcon hwk hp
    obtain ⟨f0, hf0, hm0⟩ := at_some hv 0
    obtain ⟨s1, s2, s3⟩ := plane_size hv hc hm0 p
    obtain ⟨r1, r2, r3, r4⟩ := row_plane (hv.frames f0 hm0) p
    have sz := hv.size f0 hm0 (by have := hcon.1; omega)
    obtain ⟨e1, e2⟩ := hsz f0 hm0
    have hle : w ≤ f0.width ∧ h ≤ f0.height := by
      rw [← e1, ← e2]
      exact ⟨Nat.div_le_self _ _, Nat.div_le_self _ _⟩
    rw [e]
    show ∃ g v, applyPlane F al blk c.vi (.one C .input) r n r' n' = .ok g ∧ _
    have hroww : (w : Int) * bps fm ≤ INT_MAX := by rw [hbps, ← s3, ← e1]; exact r1
    have hrowh : (h : Int) * bps fm ≤ INT_MAX := by
      rw [hbps]
      have : (h : Int) * bps c.vi.format ≤ c.vi.height * bps c.vi.format := Int.mul_le_mul_of_nonneg_right (by omega) (by omega)
      omega
    obtain ⟨g, k1, k2⟩ := makes_plane F ha hb hv hgr hi (by omega) (by omega) hroww hrowh hm (n := n) (n' := n') hr (by omega) hr' (by omega)
    refine ⟨g, v, k1, hpart, k2.mono hv ?_⟩
    rintro f k hf vk ⟨a1, a2, a3, a4, a5⟩
    obtain ⟨u1, u2⟩ := hsz f hf
    refine ⟨a4, by rw [w_zero, a2, u1], by rw [h_zero, a3, u2], fun x y hx hy => ?_⟩
    rw [a5 x y (by omega) (by omega), hfn, hfn]
    dsimp only
    rw [u1, u2, (plane_size hv hc hf p).2.2]
  · simp only [hpr, if_false]
    refine ⟨_, c.vi, rfl, part_self hv hc hp, (makes_input hv).mono hv ?_⟩
    rintro f k - - rfl
    exact ⟨rfl, rfl, rfl, fun _ _ _ _ => rfl⟩

end VS.Blur
