import Verif.Merge.PropsDiff

/-! # C69: MakeFullDiff and MergeFullDiff -/

namespace VS.Merge
open VS VS.Format VS.Map VS.Map.Spec VS.Pix VS.Pix.Spec VS.Point VS.Point.Spec VS.Merge.Spec

/-- The information about the result of MakeFullDiff. -/
theorem full_spec {al : Nat} {a : PClip} (ha : ValidClip al a) (hw : Workable a.vi.format) :
    FullOf a.vi (fullVi a.vi) ∧ isValidVideoInfo (fullVi a.vi) = .ok true := by
  have hv := full_valid (struct_of ha) hw
  obtain ⟨q1, q2, q3, q4, q5⟩ := full_fields a.vi.format
  have ef : (fullVi a.vi).format = (fullVi ⟨a.vi.format, 0, 0, 0, 0, 0⟩).format := by rw [fullVi_eq]
  refine ⟨⟨by rw [fullVi_eq], by rw [fullVi_eq], by rw [fullVi_eq], by rw [fullVi_eq], by rw [fullVi_eq], ?_, ?_, ?_, ?_, ?_, ?_⟩, ?_⟩
  · rw [ef, q1]
  · rw [ef, q5]
  · unfold fullVi
    by_cases c : a.vi.format.sampleType = stInteger
    · rw [if_pos c, if_pos c]
    · rw [if_neg c, if_neg c]; omega
  · rw [ef, q3]
  · rw [ef, q4]
  · rw [ef]; exact hv
  · obtain ⟨i1, i2, i3, i4, i5, i6, i7, i8⟩ := (info_iff _).1 ha.info
    rw [fullVi_eq]
    exact (info_iff _).2 ⟨hv, i2, i3, i4, i5, i6, i7, i8⟩

/-- Creation succeeds. -/
theorem makeFullCreate_ok {al : Nat} (F : Floats) {a b : PClip} (ha : ValidClip al a) (hb : ValidClip al b)
    (hw : Workable a.vi.format) (hc : Constant a.vi) (hf : Fit a.vi b.vi) :
    makeFullCreate F al a.vi b.vi = .ok (.filter ⟨fullVi a.vi, fun n => [(0, n), (1, n)], fun n get junk => do
      let s1 ← get 0 n
      let s2 ← get 1 n
      makeFullFrame F al a.vi s1 s2 junk⟩) := by
  unfold makeFullCreate
  rw [(workable_iff _).2 hw, (constant_iff _).2 hc, (fit_iff ha hb hc).2 hf, if_neg (by decide), if_neg (by decide)]
  exact create_ok (full_spec ha hw).2

/-- C69: other clips are refused by MakeFullDiff. -/
theorem C69_makeFull_refused {al : Nat} (F : Floats) {a b : PClip} (ha : ValidClip al a) (hb : ValidClip al b)
    (h : ¬ (Workable a.vi.format ∧ Constant a.vi ∧ Fit a.vi b.vi)) : ∃ m, makeFullCreate F al a.vi b.vi = .err m := by
  unfold makeFullCreate
  cases e3 : is8to16orFloat a.vi.format with
  | false => exact ⟨_, rfl⟩
  | true =>
    rw [if_neg (by decide)]
    cases e4 : isConstantVideoFormat a.vi with
    | false => exact ⟨_, rfl⟩
    | true =>
      cases e5 : isSameVideoInfo a.vi b.vi with
      | false => exact ⟨_, rfl⟩
      | true =>
        have hc := (constant_iff _).1 e4
        exact absurd ⟨(workable_iff _).1 e3, hc, (fit_iff ha hb hc).1 e5⟩ h

/-- Which clips MergeFullDiff takes. -/
theorem compatible_iff {al : Nat} {a b : PClip} (ha : ValidClip al a) (hb : ValidClip al b) (hw : Workable a.vi.format) :
    fullCompatible a.vi b.vi = true ↔ a.vi.width = b.vi.width ∧ a.vi.height = b.vi.height ∧ b.vi.format = (fullVi a.vi).format := by
  obtain ⟨⟨_, _, _, _, _, s6, s7, s8, s9, s10, s11⟩, _⟩ := full_spec ha hw
  unfold fullCompatible
  rw [decide_eq_true_iff]
  constructor
  · rintro ⟨h1, h2, h3, h4, h5, h6, h7⟩
    refine ⟨h2, h1, ?_⟩
    refine fmt_eq (struct_of hb) (by rw [← h3]; exact hw.1) s11 ?_
    unfold isSameVideoFormat
    rw [decide_eq_true_iff]
    refine ⟨by rw [s6, h3], by rw [s7, h4], ?_, by rw [s9, h6], by rw [s10, h7]⟩
    rw [s8]
    by_cases c : a.vi.format.sampleType = stInteger
    · rw [if_pos c] at h5 ⊢; omega
    · rw [if_neg c] at h5 ⊢; omega
  · rintro ⟨h1, h2, h3⟩
    rw [h3]
    refine ⟨h2, h1, s6.symm, s7.symm, ?_, s9.symm, s10.symm⟩
    rw [s8]
    split <;> omega

theorem mergeFullCreate_ok {al : Nat} (F : Floats) {a b : PClip} (ha : ValidClip al a) (hb : ValidClip al b)
    (hw : Workable a.vi.format) (hc : Constant a.vi)
    (hf : a.vi.width = b.vi.width ∧ a.vi.height = b.vi.height ∧ b.vi.format = (fullVi a.vi).format) :
    mergeFullCreate F al a.vi b.vi = .ok (.filter ⟨a.vi, fun n => [(0, n), (1, n)], fun n get junk => do
      let s1 ← get 0 n
      let s2 ← get 1 n
      mergeFullFrame F al a.vi s1 s2 junk⟩) := by
  unfold mergeFullCreate
  rw [(workable_iff _).2 hw, (constant_iff _).2 hc, (compatible_iff ha hb hw).2 hf, if_neg (by decide), if_neg (by decide)]
  exact create_ok ha.info

/-- C69: other clips are refused by MergeFullDiff: the second clip needs one bit more than the first one. -/
theorem C69_mergeFull_refused {al : Nat} (F : Floats) {a b : PClip} (ha : ValidClip al a) (hb : ValidClip al b)
    (h : ¬ (Workable a.vi.format ∧ Constant a.vi ∧ FullFit a.vi b.vi)) :
    ∃ m, mergeFullCreate F al a.vi b.vi = .err m := by
  unfold mergeFullCreate
  cases e3 : is8to16orFloat a.vi.format with
  | false => exact ⟨_, rfl⟩
  | true =>
    rw [if_neg (by decide)]
    cases e4 : isConstantVideoFormat a.vi with
    | false => exact ⟨_, rfl⟩
    | true =>
      cases e5 : fullCompatible a.vi b.vi with
      | false => exact ⟨_, rfl⟩
      | true =>
        exfalso
        refine h ⟨(workable_iff _).1 e3, (constant_iff _).1 e4, ?_⟩
        unfold fullCompatible at e5
        rw [decide_eq_true_iff] at e5
        obtain ⟨h1, h2, h3, h4, h5, h6, h7⟩ := e5
        refine ⟨h2.symm, h1.symm, h3.symm, h4.symm, ?_, h6.symm, h7.symm⟩
        by_cases c : a.vi.format.sampleType = stInteger
        · rw [if_pos c] at h5 ⊢; omega
        · rw [if_neg c] at h5 ⊢; omega

theorem fullFit_iff {al : Nat} {a b : PClip} (ha : ValidClip al a) (hb : ValidClip al b) (hw : Workable a.vi.format) :
    FullFit a.vi b.vi ↔ a.vi.width = b.vi.width ∧ a.vi.height = b.vi.height ∧ b.vi.format = (fullVi a.vi).format := by
  rw [← compatible_iff ha hb hw]
  unfold fullCompatible FullFit
  rw [decide_eq_true_iff]
  constructor
  · rintro ⟨h1, h2, h3, h4, h5, h6, h7⟩
    refine ⟨h2.symm, h1.symm, h3.symm, h4.symm, ?_, h6.symm, h7.symm⟩
    by_cases c : a.vi.format.sampleType = stInteger
    · rw [if_pos c] at h5 ⊢; omega
    · rw [if_neg c] at h5 ⊢; omega
  · rintro ⟨h1, h2, h3, h4, h5, h6, h7⟩
    refine ⟨h2.symm, h1.symm, h3.symm, h4.symm, ?_, h6.symm, h7.symm⟩
    by_cases c : a.vi.format.sampleType = stInteger
    · rw [if_pos c] at h5 ⊢; omega
    · rw [if_neg c] at h5 ⊢; omega

/-! ## Samples -/

theorem store_eq {b : Nat} {x : Int} (h : 0 ≤ x) (h' : x < ((2 ^ b : Nat) : Int)) : (store b x : Int) = x := by
  unfold store
  push_cast at h'
  rw [Int.toNat_of_nonneg (Int.emod_nonneg _ (by have := Nat.pow_pos (n := b) (show 0 < 2 by decide); omega)),
    Int.emod_eq_of_lt h (by omega)]

/-- One sample of MakeFullDiff and one of MergeFullDiff. -/
theorem full_px (F : Floats) {f : VFmt} (h : isValidVideoStruct f = true) (hw : Workable f) (ht : f.sampleType = stInteger) :
    ∃ px qx, makeFullKernel F f = some (⟨bps f, bps f, bps (fullVi ⟨f, 0, 0, 0, 0, 0⟩).format⟩, px) ∧
      mergeFullKernel F f = some (⟨bps f, bps (fullVi ⟨f, 0, 0, 0, 0, 0⟩).format, bps f⟩, qx) ∧
      (∃ P : Nat → Nat → Nat, (∀ a b, px a b = .ok (P a b)) ∧ ∀ a b, a < 2 ^ f.bitsPerSample.toNat → b < 2 ^ f.bitsPerSample.toNat →
        ((P a b % 256 ^ bps (fullVi ⟨f, 0, 0, 0, 0, 0⟩).format : Nat) : Int) = (a : Int) - b + 2 ^ f.bitsPerSample.toNat) ∧
      ∀ a d, a < 2 ^ f.bitsPerSample.toNat → d < 2 ^ (f.bitsPerSample.toNat + 1) →
        ∃ r, qx a d = .ok r ∧ ((r % 256 ^ bps f : Nat) : Int) = limited ((a : Int) + d - 2 ^ f.bitsPerSample.toNat) (maxOf f) := by
  obtain ⟨px, qx, e1, e2, hk⟩ := full_kernels F h hw
  refine ⟨px, qx, e1, e2, ?_⟩
  have hpow : ∀ d : Nat, (2 : Int) ^ d = ((2 ^ d : Nat) : Int) := by intro d; push_cast; rfl
  rw [max_eq]
  rcases hk with ⟨_, hb, b1, b2, h1, h2⟩ | ⟨_, hb, hb', b1, b2, h1, h2⟩ | ⟨_, hb, b1, b2, h1, h2⟩ | ⟨c, _⟩
  · rw [b1, b2, hb]
    refine ⟨⟨_, h1, ?_⟩, ?_⟩
    · intro a b ha hb
      have ha' : a < 256 := ha
      have hb' : b < 256 := hb
      have e := store_eq (b := 16) (x := (a : Int) - b + 256) (by omega) (by show _ < (65536 : Int); omega)
      unfold makeFullByte
      rw [Nat.mod_eq_of_lt (by show _ < 65536; omega), e]
      rfl
    · intro a d ha hd
      exact ⟨_, h2 a d, clamp_mod (by decide)⟩
  · obtain ⟨p1, p2, p3⟩ := pow_depth (d := f.bitsPerSample.toNat) (by omega) (by omega)
    have p4 : 2 ^ f.bitsPerSample.toNat ≤ 2 ^ 15 := Nat.pow_le_pow_right (by decide) (by omega)
    rw [b1, b2, hpow]
    refine ⟨⟨_, h1, ?_⟩, ?_⟩
    · intro a b ha hb
      unfold makeFullWord
      rw [hpow]
      generalize 2 ^ f.bitsPerSample.toNat = N at *
      rw [store_eq (b := 16) (x := (N : Int)) (by omega) (by show _ < (65536 : Int); omega)]
      have e := store_eq (b := 16) (x := (a : Int) - b + N) (by omega) (by show _ < (65536 : Int); omega)
      rw [Nat.mod_eq_of_lt (by show _ < 65536; omega), e]
    · intro a d ha hd
      exact ⟨_, h2 a d, clamp_mod (by show _ < 65536; omega)⟩
  · rw [b1, b2, hb]
    refine ⟨⟨_, h1, ?_⟩, ?_⟩
    · intro a b ha hb'
      have ha' : a < 65536 := ha
      have hb'' : b < 65536 := hb'
      have e := store_eq (b := 32) (x := (a : Int) - b + 65536) (by omega) (by show _ < (4294967296 : Int); omega)
      rw [hb]
      unfold makeFullDword
      change (store 32 ((a : Int) - b + 65536) : Int) = _ at e
      show ((store 32 ((a : Int) - b + 65536) % 4294967296 : Nat) : Int) = (a : Int) - b + 65536
      rw [Nat.mod_eq_of_lt (by omega), e]
    · intro a d ha hd
      have ha' : a < 65536 := ha
      have hd' : d < 131072 := hd
      rw [h2, hb]
      unfold mergeFullDword
      have et : toI32 d = d := by unfold toI32; rw [if_pos (by omega)]
      rw [et, i32_ok (by unfold InI32 INT_MIN INT_MAX; omega), Res.bind_ok]
      have e16 : (((2 ^ Int.toNat 16 : Nat)) : Int) = 65536 := rfl
      rw [e16, i32_ok (by unfold InI32 INT_MIN INT_MAX; omega), Res.bind_ok]
      refine ⟨_, rfl, ?_⟩
      exact clamp_mod (by decide)
  · have n1 : (stFloat : Int) ≠ stInteger := by decide
    exact absurd (c.symm.trans ht) n1

/-- C69: MakeFullDiff gives the exact difference of the samples, shifted by 2 to the number of bits; its samples have one
bit more. -/
theorem C69_makeFull {al : Nat} (hal : AlignOk al) (F : Floats) {a b : PClip} (ha : ValidClip al a) (hb : ValidClip al b)
    (hw : Workable a.vi.format) (ht : a.vi.format.sampleType = stInteger) (hc : Constant a.vi) (hf : Fit a.vi b.vi)
    (hz : a.vi.width * 4 ≤ INT_MAX) :
    ∃ C full, makeFullCreate F al a.vi b.vi = .ok C ∧ outInfo C [a, b] = some full ∧ FullOf a.vi full ∧
      ∀ n fa fb, at? a n = some fa → at? b n = some fb → InRange al fa → InRange al fb →
        Gives al C [a, b] n full.format fa.width fa.height fa.props fun p x y =>
          (smp al fa p x y : Int) - smp al fb p x y + 2 ^ a.vi.format.bitsPerSample.toNat := by
  obtain ⟨sp, hv⟩ := full_spec ha hw
  refine ⟨_, fullVi a.vi, makeFullCreate_ok F ha hb hw hc hf, rfl, sp, ?_⟩
  intro n fa fb hfa hfb ra rb
  obtain ⟨va, a1, a2, a3⟩ := const_frame ha hc (at_mem hfa)
  obtain ⟨b1, b2, b3⟩ := fit_frame ha hb hc hf (at_mem hfa) (at_mem hfb)
  have vb := hb.frames fb (at_mem hfb)
  have ef : (fullVi a.vi).format = (fullVi ⟨a.vi.format, 0, 0, 0, 0, 0⟩).format := by rw [fullVi_eq]
  obtain ⟨px, qx, k1, _, ⟨P, hP, hP2⟩, _⟩ := full_px F (struct_of ha) hw ht
  rw [← ef] at k1 hP2
  have hbp : bps (fullVi a.vi).format ≤ 4 := by
    obtain ⟨px, qx, _, _, hk⟩ := full_kernels F (struct_of ha) hw
    rw [← ef] at hk
    have n1 : (stFloat : Int) ≠ stInteger := by decide
    rcases hk with ⟨_, _, _, b2, _⟩ | ⟨_, _, _, _, b2, _⟩ | ⟨_, _, _, b2, _⟩ | ⟨c, _⟩
    · omega
    · omega
    · omega
    · exact absurd (c.symm.trans ht) n1
  refine gives_of rfl (sp.wide.trans a2.symm) (sp.high.trans a3.symm) ?_
  intro junk
  obtain ⟨g, e, v, g1, g2, g3, g4, g5⟩ := makeFullFrame_ok (F := F) (vi := a.vi) (align_pos hal) va vb a1 a2 a3 b1 b2 b3 (by
    have : (fa.width : Int) * bps (fullVi a.vi).format ≤ fa.width * 4 := Int.mul_le_mul_of_nonneg_left (by omega) (by omega)
    omega) k1 rfl rfl rfl sp.valid (G := fun p x y => P (smp al fa p x y) (smp al fb p x y)) (fun p x y _ _ => hP _ _) junk
  refine ⟨g, ?_, v, g1, g2, g3, g4, ?_⟩
  · show (getFrameFilter [a, b] [(0, n), (1, n)] 0 n >>= fun s1 => getFrameFilter [a, b] [(0, n), (1, n)] 1 n >>= fun s2 =>
      makeFullFrame F al a.vi s1 s2 junk) = _
    rw [get_ok (i := 0) rfl ha (by simp) hfa, Res.bind_ok, get_ok (i := 1) rfl hb (by simp) hfb, Res.bind_ok, e]
  · intro p x y hp hx hy
    have hp' := hp
    rw [ef, (full_fields a.vi.format).2.1] at hp'
    have ew : g.w p = fa.w p := by unfold Frm.w; rw [g1, g2, a1, (ss_eq sp.ssw sp.ssh p).1]
    have eh : g.h p = fa.h p := by unfold Frm.h; rw [g1, g3, a1, (ss_eq sp.ssw sp.ssh p).2]
    rw [ew] at hx
    rw [eh] at hy
    rw [g5 p x y hp (by rw [ew]; exact hx) (by rw [eh]; exact hy)]
    have l1 := ra p x y (a1 ▸ hp') hx hy
    have l2 := rb p x y (by rw [b1, a1]; exact hp') (by rw [w_eq b1 b2]; exact hx) (by rw [h_eq b1 b3]; exact hy)
    rw [b1] at l2
    rw [a1] at l1 l2
    exact hP2 _ _ l1 l2

/-- C69: MergeFullDiff adds such a difference and limits the sum to the range of the samples. -/
theorem C69_mergeFull {al : Nat} (hal : AlignOk al) (F : Floats) {a d : PClip} (ha : ValidClip al a) (hd : ValidClip al d)
    (hw : Workable a.vi.format) (ht : a.vi.format.sampleType = stInteger) (hc : Constant a.vi) (hf : FullFit a.vi d.vi) :
    ∃ C, mergeFullCreate F al a.vi d.vi = .ok C ∧ outInfo C [a, d] = some a.vi ∧
      ∀ n fa fd, at? a n = some fa → at? d n = some fd → InRange al fa → InRange al fd →
        Gives al C [a, d] n a.vi.format fa.width fa.height fa.props fun p x y =>
          limited ((smp al fa p x y : Int) + smp al fd p x y - 2 ^ a.vi.format.bitsPerSample.toNat) (maxOf a.vi.format) := by
  obtain ⟨sp, hv⟩ := full_spec ha hw
  have hf' := (fullFit_iff ha hd hw).1 hf
  refine ⟨_, mergeFullCreate_ok F ha hd hw hc hf', rfl, ?_⟩
  intro n fa fd hfa hfd ra rd
  obtain ⟨va, a1, a2, a3⟩ := const_frame ha hc (at_mem hfa)
  have hcd : Constant d.vi := by
    refine ⟨by rw [← hf'.1]; exact hc.1, by rw [← hf'.2.1]; exact hc.2.1, ?_⟩
    rw [hf.2.2.1]
    exact hc.2.2
  obtain ⟨vd, d1, d2, d3⟩ := const_frame hd hcd (at_mem hfd)
  have ef : (fullVi a.vi).format = (fullVi ⟨a.vi.format, 0, 0, 0, 0, 0⟩).format := by rw [fullVi_eq]
  obtain ⟨px, qx, _, k2, _, hq⟩ := full_px F (struct_of ha) hw ht
  rw [← ef] at k2
  have ew : ∀ p, fd.w p = fa.w p := by
    intro p; unfold Frm.w
    rw [d1, hf'.2.2, a1, (ss_eq sp.ssw sp.ssh p).1, show fd.width = fa.width by omega]
  have eh : ∀ p, fd.h p = fa.h p := by
    intro p; unfold Frm.h
    rw [d1, hf'.2.2, a1, (ss_eq sp.ssw sp.ssh p).2, show fd.height = fa.height by omega]
  have hb0 : 0 ≤ a.vi.format.bitsPerSample := by
    obtain ⟨k, _, _, hko⟩ := kind_ok (struct_of ha) hw
    cases k with
    | byte => have := hko.2.1; omega
    | word => have := hko.2.1; omega
    | single => have := hko.2.1; omega
    | half => have := hko.2.1; omega
  have hbits : fd.fmt.bitsPerSample.toNat = a.vi.format.bitsPerSample.toNat + 1 := by
    have := hf.2.2.2.2.1
    rw [if_pos ht] at this
    rw [d1]
    omega
  have hG : ∀ (p x y : Nat), (p : Int) < a.vi.format.numPlanes → x < fa.w p → y < fa.h p →
      ∃ r, qx (smp al fa p x y) (smp al fd p x y) = .ok r ∧ ((r % 256 ^ bps a.vi.format : Nat) : Int) =
        limited ((smp al fa p x y : Int) + smp al fd p x y - 2 ^ a.vi.format.bitsPerSample.toNat) (maxOf a.vi.format) := by
    intro p x y hp hx hy
    have l1 := ra p x y (a1 ▸ hp) hx hy
    rw [a1] at l1
    have l2 := rd p x y (by rw [d1, hf'.2.2, ef, (full_fields a.vi.format).2.1]; exact hp) (by rw [ew]; exact hx) (by rw [eh]; exact hy)
    rw [hbits] at l2
    exact hq _ _ l1 l2
  refine gives_of rfl a2.symm a3.symm ?_
  intro junk
  obtain ⟨g, e, v, g1, g2, g3, g4, g5⟩ := mergeFullFrame_ok (F := F) (vi := a.vi) (align_pos hal) va vd a1 a2 a3 (d1.trans hf'.2.2)
    (by omega) (by omega) k2 rfl rfl rfl
    (G := fun p x y => match qx (smp al fa p x y) (smp al fd p x y) with | .ok r => r | _ => 0) (by
      intro p x y hp hx hy
      obtain ⟨r, e, _⟩ := hG p x y hp hx hy
      rw [e]) junk
  refine ⟨g, ?_, v, g1, g2, g3, g4, ?_⟩
  · show (getFrameFilter [a, d] [(0, n), (1, n)] 0 n >>= fun s1 => getFrameFilter [a, d] [(0, n), (1, n)] 1 n >>= fun s2 =>
      mergeFullFrame F al a.vi s1 s2 junk) = _
    rw [get_ok (i := 0) rfl ha (by simp) hfa, Res.bind_ok, get_ok (i := 1) rfl hd (by simp) hfd, Res.bind_ok, e]
  · intro p x y hp hx hy
    rw [g5 p x y hp hx hy]
    obtain ⟨r, e, e'⟩ := hG p x y hp (by rw [← w_eq (show g.fmt = fa.fmt by rw [g1, a1]) g2]; exact hx)
      (by rw [← h_eq (show g.fmt = fa.fmt by rw [g1, a1]) g3]; exact hy)
    rw [e]
    exact e'

/-- C69: nothing is lost: MergeFullDiff of the second clip and the difference is the first clip, for all samples. `d` is a
clip with the frames MakeFullDiff gives. -/
theorem C69_round_trip {al : Nat} (hal : AlignOk al) (F : Floats) {a b d : PClip} (ha : ValidClip al a) (hb : ValidClip al b)
    (hd : ValidClip al d) (hw : Workable a.vi.format) (ht : a.vi.format.sampleType = stInteger)
    (hc : Constant a.vi) (hf : Fit a.vi b.vi) (hfd : FullOf a.vi d.vi) (hz : a.vi.width * 4 ≤ INT_MAX) :
    ∃ C D, makeFullCreate F al a.vi b.vi = .ok C ∧ outInfo C [a, b] = some d.vi ∧ mergeFullCreate F al b.vi d.vi = .ok D ∧
      ∀ n fa fb fd junk, at? a n = some fa → at? b n = some fb → at? d n = some fd → C.frame [a, b] n junk = .ok fd →
        InRange al fa → InRange al fb →
        ∀ junk', ∃ g, D.frame [b, d] n junk' = .ok g ∧ ∀ p x y : Nat, (p : Int) < a.vi.format.numPlanes → x < fa.w p → y < fa.h p →
          smp al g p x y = smp al fa p x y := by
  have hwb : Workable b.vi.format := hf.2.2 ▸ hw
  have hcb : Constant b.vi := by unfold Constant at *; rw [← hf.1, ← hf.2.1, ← hf.2.2]; exact hc
  have hfb : FullFit b.vi d.vi := by
    unfold FullFit
    rw [← hf.1, ← hf.2.1, ← hf.2.2]
    exact ⟨hfd.wide, hfd.high, hfd.family, hfd.type, hfd.bits, hfd.ssw, hfd.ssh⟩
  obtain ⟨C, full, e1, o1, sp, h1⟩ := C69_makeFull hal F ha hb hw ht hc hf hz
  obtain ⟨D, e2, _, h2⟩ := C69_mergeFull hal F hb hd hwb (hf.2.2 ▸ ht) hcb hfb
  have efm : full.format = d.vi.format := by
    refine fmt_eq sp.valid (by rw [sp.family]; exact hc.2.2) hfd.valid ?_
    unfold isSameVideoFormat
    rw [decide_eq_true_iff]
    exact ⟨by rw [sp.family, hfd.family], by rw [sp.type, hfd.type], by rw [sp.bits, hfd.bits], by rw [sp.ssw, hfd.ssw],
      by rw [sp.ssh, hfd.ssh]⟩
  have efull : full = d.vi := by
    have ext : ∀ u v : VInfo, u.format = v.format → u.fpsNum = v.fpsNum → u.fpsDen = v.fpsDen → u.width = v.width →
        u.height = v.height → u.numFrames = v.numFrames → u = v := by
      rintro ⟨⟩ ⟨⟩ h1 h2 h3 h4 h5 h6
      cases h1; cases h2; cases h3; cases h4; cases h5; cases h6
      rfl
    exact ext _ _ efm (sp.num.trans hfd.num.symm) (sp.den.trans hfd.den.symm) (sp.wide.trans hfd.wide.symm)
      (sp.high.trans hfd.high.symm) (sp.count.trans hfd.count.symm)
  refine ⟨C, D, e1, efull ▸ o1, e2, ?_⟩
  intro n fa fb fd junk hfa hfb' hfd' hfr ra rb junk'
  obtain ⟨g1, q, _, q1, q2, q3, _, q5⟩ := h1 n fa fb hfa hfb' ra rb junk
  rw [q, Res.ok.injEq] at hfr
  subst hfr
  obtain ⟨va, a1, a2, a3⟩ := const_frame ha hc (at_mem hfa)
  obtain ⟨b1, b2, b3⟩ := fit_frame ha hb hc hf (at_mem hfa) (at_mem hfb')
  have hnp : full.format.numPlanes = a.vi.format.numPlanes := by
    have g1 := (good_of sp.valid (by rw [sp.family]; exact hc.2.2)).2.2
    have g2 := (good_of (struct_of ha) hc.2.2).2.2
    rw [g1, g2, sp.family]
  have ew : ∀ p, g1.w p = fa.w p := by intro p; unfold Frm.w; rw [q1, q2, a1, (ss_eq sp.ssw sp.ssh p).1]
  have eh : ∀ p, g1.h p = fa.h p := by intro p; unfold Frm.h; rw [q1, q3, a1, (ss_eq sp.ssw sp.ssh p).2]
  have hb0 : 0 ≤ a.vi.format.bitsPerSample := by
    obtain ⟨k, _, _, hko⟩ := kind_ok (struct_of ha) hw
    cases k with
    | byte => have := hko.2.1; omega
    | word => have := hko.2.1; omega
    | single => have := hko.2.1; omega
    | half => have := hko.2.1; omega
  have hpow : (2 : Int) ^ a.vi.format.bitsPerSample.toNat = ((2 ^ a.vi.format.bitsPerSample.toNat : Nat) : Int) := by push_cast; rfl
  have hall : ∀ p x y : Nat, (p : Int) < a.vi.format.numPlanes → x < fa.w p → y < fa.h p →
      smp al fa p x y < 2 ^ a.vi.format.bitsPerSample.toNat ∧ smp al fb p x y < 2 ^ a.vi.format.bitsPerSample.toNat ∧
      (smp al g1 p x y : Int) = (smp al fa p x y : Int) - smp al fb p x y + ((2 ^ a.vi.format.bitsPerSample.toNat : Nat) : Int) := by
    intro p x y hp hx hy
    have l1 := ra p x y (a1 ▸ hp) hx hy
    have l2 := rb p x y (by rw [b1, a1]; exact hp) (by rw [w_eq b1 b2]; exact hx) (by rw [h_eq b1 b3]; exact hy)
    rw [b1] at l2
    rw [a1] at l1 l2
    have := q5 p x y (by rw [hnp]; exact hp) (by rw [ew]; exact hx) (by rw [eh]; exact hy)
    dsimp only at this
    rw [hpow] at this
    exact ⟨l1, l2, this⟩
  have rg : InRange al g1 := by
    intro p x y hp hx hy
    rw [q1, hnp] at hp
    obtain ⟨l1, l2, e⟩ := hall p x y hp (by rw [← ew]; exact hx) (by rw [← eh]; exact hy)
    have : full.format.bitsPerSample.toNat = a.vi.format.bitsPerSample.toNat + 1 := by
      have := sp.bits
      rw [if_pos ht] at this
      omega
    rw [q1, this, Nat.pow_succ]
    generalize 2 ^ a.vi.format.bitsPerSample.toNat = N at *
    omega
  obtain ⟨g, r, _, r1, r2, r3, _, r5⟩ := h2 n fb g1 hfb' hfd' rb rg junk'
  refine ⟨g, r, ?_⟩
  intro p x y hpp hx hy
  have eg : g.fmt = fa.fmt := by rw [r1, a1, ← hf.2.2]
  have s2 := r5 p x y (by rw [← hf.2.2]; exact hpp) (by rw [w_eq eg (by omega)]; exact hx) (by rw [h_eq eg (by omega)]; exact hy)
  dsimp only at s2
  obtain ⟨l1, l2, e⟩ := hall p x y hpp hx hy
  rw [← hf.2.2, hpow, max_eq] at s2
  generalize 2 ^ a.vi.format.bitsPerSample.toNat = N at *
  rw [limited_id (by omega) (by omega)] at s2
  omega

/-! ## Examples -/

example : ∃ C full, makeFullCreate exFloats 32 exClip.vi exClip.vi = .ok C ∧ outInfo C [exClip, exClip] = some full ∧
    full.format.bitsPerSample = 9 := by
  obtain ⟨C, full, e, o, sp, _⟩ := C69_makeFull (Or.inl rfl) exFloats exClip_valid exClip_valid
    ⟨by decide, by decide, by decide⟩ rfl ⟨by decide, by decide, by decide⟩ ⟨rfl, rfl, rfl⟩ (by decide)
  exact ⟨C, full, e, o, by rw [sp.bits]; rfl⟩

/-- A clip of 8 bits and a difference of 9 bits. -/
def gray9 : VFmt := ⟨cfGray, stInteger, 9, 2, 0, 0, 1⟩

theorem gray9_geo : Geo gray9 4 2 := ⟨by decide, by decide, by decide, by decide, by decide, by decide, by decide, by decide⟩

example : ∃ C D, makeFullCreate exFloats 32 (clip1 gray8 4 2 exPx Dict.empty).vi (clip1 gray8 4 2 exPx Dict.empty).vi = .ok C ∧
    mergeFullCreate exFloats 32 (clip1 gray8 4 2 exPx Dict.empty).vi (clip1 gray9 4 2 exPx Dict.empty).vi = .ok D := by
  have v := clip1_valid gray8_geo exPx Dict.empty
  obtain ⟨C, D, e1, _, e2, _⟩ := C69_round_trip (Or.inl rfl) exFloats v v (clip1_valid gray9_geo exPx Dict.empty)
    ⟨by decide, by decide, by decide⟩ rfl ⟨by decide, by decide, by decide⟩ ⟨rfl, rfl, rfl⟩
    ⟨rfl, rfl, rfl, rfl, rfl, rfl, rfl, rfl, rfl, rfl, by decide⟩ (by decide)
  exact ⟨C, D, e1, e2⟩

example : ∃ m, mergeFullCreate exFloats 32 exClip.vi exClip.vi = .err m :=
  C69_mergeFull_refused exFloats exClip_valid exClip_valid (fun h => absurd h.2.2.2.2.2.2.1 (by decide))

/-- C69 needs samples in the range of their format: a number far beyond 17 bits overflows. -/
theorem C69_out_of_range_refuted : ∃ a d : Nat, a < 2 ^ 16 ∧ d < 2 ^ 32 ∧ mergeFullDword 16 a d = .ub :=
  ⟨1, 2 ^ 31 - 1, by decide, by decide, rfl⟩

end VS.Merge
