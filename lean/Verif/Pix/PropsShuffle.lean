import Verif.Pix.LemmasShuffle
import Verif.Pix.Example

/-! # C59: ShufflePlanes and SplitPlanes -/

namespace VS.Pix
open VS VS.Format VS.Map VS.Map.Spec VS.Pix.Spec

/-- What `shufflePlanesCreate` has checked when it makes a filter. -/
theorem shuffle_inv {vis : List VInfo} {planes : List Int} {cf : Int} {ps : Bool} {C : Created}
    (h : shufflePlanesCreate vis planes cf ps = .ok C) :
    (∀ v ∈ vis, isConstantVideoFormat v = true) ∧ ∃ v0 v1 v2 n1 n2, n1 = min 1 (vis.length - 1) ∧ n2 = min 2 (vis.length - 1) ∧
      vis[0]? = some v0 ∧ vis[n1]? = some v1 ∧ vis[n2]? = some v2 ∧ badPlane v0 (planes.getD 0 0) = false ∧
      ((family (int64ToIntS cf) = cfGray ∧ create (grayFilter { v0 with
          format := (queryVideoFormat cfGray v0.format.sampleType v0.format.bitsPerSample 0 0).2
          width := planeWidth v0 (planes.getD 0 0).toNat, height := planeHeight v0 (planes.getD 0 0).toNat } 0
            (if ps then vis.length else 0) (planes.getD 0 0)) = .ok C) ∨
       (family (int64ToIntS cf) ≠ cfGray ∧ badPlane v1 (planes.getD 1 0) = false ∧ badPlane v2 (planes.getD 2 0) = false ∧
        ∃ vi, shuffleInfo (family (int64ToIntS cf)) v0 v1 v2 (planes.getD 0 0).toNat (planes.getD 1 0).toNat (planes.getD 2 0).toNat = .ok vi ∧
          create (shuffleFilter vi 0 n1 n2 (if ps then vis.length else 0) (planes.getD 0 0) (planes.getD 1 0) (planes.getD 2 0)) = .ok C)) := by
  unfold shufflePlanesCreate at h
  simp only at h
  generalize family (int64ToIntS cf) = fam at *
  split at h
  · exact absurd h (by simp)
  generalize hop : (if fam = cfGray then 1 else 3) = op at h
  have hop3 : op ≤ 3 := by rw [← hop]; split <;> omega
  split at h
  · exact absurd h (by simp)
  rename_i hlen
  split at h
  · exact absurd h (by simp)
  split at h
  · exact absurd h (by simp)
  rename_i hany
  have hcon : ∀ v ∈ vis, isConstantVideoFormat v = true := by
    intro v hv
    refine Decidable.byContradiction fun hh => hany (List.any_eq_true.2 ⟨v, hv, ?_⟩)
    simpa using hh
  refine ⟨hcon, ?_⟩
  have e1 : (if vis.length ≥ 2 then 1 else 0) = min 1 (vis.length - 1) := by split <;> omega
  have e2 : (if vis.length ≥ 3 then 2 else if vis.length ≥ 2 then 1 else 0) = min 2 (vis.length - 1) := by split <;> (try split) <;> omega
  rw [e1] at h e2
  rw [e2] at h
  split at h
  · rename_i v0 v1 v2 h0 h1 h2
    split at h
    · exact absurd h (by simp)
    rename_i hbad
    have hb0 : badPlane v0 (planes.getD 0 0) = false := by
      refine Bool.eq_false_iff.2 fun hh => hbad ?_
      rw [hh]; rfl
    refine ⟨v0, v1, v2, _, _, rfl, rfl, h0, h1, h2, hb0, ?_⟩
    split at h
    · rename_i hg
      exact Or.inl ⟨hg, h⟩
    · rename_i hg
      obtain ⟨vi, hi, h⟩ := bind_eq_ok h
      refine Or.inr ⟨hg, ?_, ?_, vi, hi, h⟩
      · refine Bool.eq_false_iff.2 fun hh => hbad ?_
        rw [hh]; simp [hg]
      · refine Bool.eq_false_iff.2 fun hh => hbad ?_
        rw [hh]; simp [hg]
  · exact absurd h (by simp)

theorem shuffleInfo_inv {fam : Int} {v0 v1 v2 vi : VInfo} {p0 p1 p2 : Nat} (h : shuffleInfo fam v0 v1 v2 p0 p1 p2 = .ok vi) :
    planeWidth v1 p1 = planeWidth v2 p2 ∧ planeHeight v1 p1 = planeHeight v2 p2 ∧ ∃ ssH ssW : Nat,
      planeHeight v0 p0 = planeHeight v1 p1 * 2 ^ ssH ∧ planeWidth v0 p0 = planeWidth v1 p1 * 2 ^ ssW ∧
      v1.format.bitsPerSample = v0.format.bitsPerSample ∧ v2.format.bitsPerSample = v0.format.bitsPerSample ∧
      v1.format.sampleType = v0.format.sampleType ∧ v2.format.sampleType = v0.format.sampleType ∧
      vi.format = (queryVideoFormat fam v0.format.sampleType v0.format.bitsPerSample ssW ssH).2 ∧
      vi.width = planeWidth v0 p0 ∧ vi.height = planeHeight v0 p0 ∧
      vi.numFrames = max (max v0.numFrames v1.numFrames) v2.numFrames := by
  unfold shuffleInfo at h
  split at h
  · exact absurd h (by simp)
  rename_i hs
  split at h
  · rename_i ssH ssW e1 e2
    split at h
    · exact absurd h (by simp)
    rename_i hb
    split at h
    · exact absurd h (by simp)
    rw [Res.ok.injEq] at h
    subst h
    exact ⟨by omega, by omega, ssH, ssW, (findSub_ok e1).1, (findSub_ok e2).1, by omega, by omega, by omega, by omega, rfl, rfl, rfl, rfl⟩
  · exact absurd h (by simp)

theorem bad_inv {al : Nat} {c : PClip} (hv : ValidClip al c) (hc : isConstantVideoFormat c.vi = true) {f : Frm} (hf : f ∈ c.frames)
    {p : Int} (h : badPlane c.vi p = false) : 0 ≤ p ∧ p < f.fmt.numPlanes := by
  unfold badPlane at h
  have := of_decide_eq_false h
  have k := (plane_size hv hc hf 0).2.2
  unfold isConstantVideoFormat at hc
  have kk := of_decide_eq_true hc
  rw [k]
  by_cases hp : p < 0
  · exact absurd (Or.inl hp) this
  · refine ⟨by omega, ?_⟩
    refine Int.not_le.1 fun hge => this (Or.inr ⟨kk.2.2, hge⟩)

theorem row_plane {al : Nat} {f : Frm} (v : Valid al f) (p : Nat) : (f.w p : Int) * bps f.fmt ≤ INT_MAX ∧ 0 < f.w p ∧ 0 < f.h p ∧
    (f.h p : Int) ≤ INT_MAX := by
  have h1 : f.w p ≤ f.width := Nat.div_le_self _ _
  have h2 : f.h p ≤ f.height := Nat.div_le_self _ _
  have hr := v.row
  have hrs := v.rows
  refine ⟨?_, Nat.div_pos (Nat.le_of_dvd v.width (dvd_ssw v.modW p)) (Nat.two_pow_pos _),
    Nat.div_pos (Nat.le_of_dvd v.height (dvd_ssh v.modH p)) (Nat.two_pow_pos _), by omega⟩
  have : (f.w p : Int) * bps f.fmt ≤ f.width * bps f.fmt := Int.mul_le_mul_of_nonneg_right (by omega) (by omega)
  omega

theorem get_at {al : Nat} {all : List PClip} (hv : ∀ c ∈ all, ValidClip al c) {n : Nat} {fs : List Frm}
    (hf : all.map (at? · n) = fs.map some) {i : Nat} {c : PClip} (hc : all[i]? = some c) {reqs : List (Nat × Nat)}
    (hr : (i, n) ∈ reqs) : ∃ f, fs[i]? = some f ∧ f ∈ c.frames ∧ getFrameFilter all reqs i n = .ok f := by
  have h2 : (all.map (at? · n))[i]? = (fs.map some)[i]? := by rw [hf]
  rw [List.getElem?_map, List.getElem?_map, hc] at h2
  rcases e : fs[i]? with _ | f
  · rw [e] at h2; simp at h2
  · rw [e] at h2
    have ha : at? c n = some f := Option.some.inj h2
    exact ⟨f, rfl, at_mem ha, get_ok hc (hv c (List.mem_of_getElem? hc)) hr ha⟩

/-- C59. Each plane of each frame of `ShufflePlanes` is the given plane of the frame with the same number of the given
clip (the last clip given for planes beyond the number of clips). The properties are those of the first clip or of
`prop_src`. Provided the subsampling of the result exists; see `C59_shuffle_refuted`. -/
theorem C59_shuffle {al : Nat} {clips : List PClip} {prop : Option PClip}
    (hv : ∀ c ∈ clips ++ prop.toList, ValidClip al c) {planes : List Int} {cf : Int} {C : Created}
    (hC : shufflePlanesCreate (clips.map (·.vi)) planes cf prop.isSome = .ok C) {n : Nat} {fs : List Frm}
    (hf : (clips ++ prop.toList).map (at? · n) = fs.map some)
    (hk : ∀ vi, outInfo C (clips ++ prop.toList) = some vi → vi.format.colorFamily ≠ cfUndefined) (junk : Junk) :
    ∃ g, C.frame (clips ++ prop.toList) n junk = .ok g ∧ Valid al g ∧ g.fmt.colorFamily = family (int64ToIntS cf) ∧
      (∃ f, fs[if prop.isSome then clips.length else 0]? = some f ∧ g.props = f.props) ∧
      ∀ i : Nat, (i : Int) < g.fmt.numPlanes → ∃ f, fs[min i (clips.length - 1)]? = some f ∧ 0 ≤ planes.getD i 0 ∧
        planes.getD i 0 < f.fmt.numPlanes ∧ g.fmt.sampleType = f.fmt.sampleType ∧ g.fmt.bitsPerSample = f.fmt.bitsPerSample ∧
        (img al g i).Same (img al f (planes.getD i 0).toNat) := by
  obtain ⟨hcon, v0, v1, v2, n1, n2, rfl, rfl, r0, r1, r2, b0, hcase⟩ := shuffle_inv hC
  rw [List.getElem?_map] at r0 r1 r2
  obtain ⟨c0, q0, rfl⟩ := Option.map_eq_some_iff.1 r0
  obtain ⟨c1, q1, rfl⟩ := Option.map_eq_some_iff.1 r1
  obtain ⟨c2, q2, rfl⟩ := Option.map_eq_some_iff.1 r2
  clear r0 r1 r2
  rw [List.length_map] at q1 q2 hcase
  have inAll : ∀ {i : Nat} {c : PClip}, clips[i]? = some c → (clips ++ prop.toList)[i]? = some c := by
    intro i c h
    rw [List.getElem?_append_left (List.getElem?_eq_some_iff.1 h).1]
    exact h
  have con : ∀ {i : Nat} {c : PClip}, clips[i]? = some c → isConstantVideoFormat c.vi = true := by
    intro i c h
    exact hcon _ (List.mem_map.2 ⟨c, List.mem_of_getElem? h, rfl⟩)
  have vl : ∀ {i : Nat} {c : PClip}, clips[i]? = some c → ValidClip al c := by
    intro i c h
    exact hv c (List.mem_append_left _ (List.mem_of_getElem? h))
  have knw : ∀ {i : Nat} {c : PClip}, clips[i]? = some c → c.vi.format.colorFamily ≠ cfUndefined ∧ isValidVideoStruct c.vi.format = true := by
    intro i c h
    have hc := con h
    unfold isConstantVideoFormat at hc
    exact ⟨(of_decide_eq_true hc).2.2, ((info_iff _).1 (vl h).info).1⟩
  have hpos : 0 < clips.length := (List.getElem?_eq_some_iff.1 q0).1
  have hprop : ∃ c, (clips ++ prop.toList)[if prop.isSome then clips.length else 0]? = some c := by
    cases prop with
    | none => exact ⟨c0, inAll q0⟩
    | some c => exact ⟨c, by simp⟩
  obtain ⟨cp, qp⟩ := hprop
  rcases hcase with ⟨hg, hcr⟩ | ⟨hg, b1, b2, vi, hi, hcr⟩
  · obtain ⟨rfl, hinfo⟩ := create_eq_ok hcr
    have kf := gray_known (knw q0).2 (knw q0).1
    obtain ⟨o1, o2, o3, o4, o5, o6, o7⟩ := query_ok (c := cfGray) (t := c0.vi.format.sampleType) (b := c0.vi.format.bitsPerSample)
      (w := 0) (h := 0) (by rw [kf]; decide)
    obtain ⟨f0, f1, f2, f3⟩ := get_at hv hf (inAll q0)
      (reqs := [(0, n), (if prop.isSome then clips.length else 0, n)]) (by simp)
    obtain ⟨fp, p1, p2, p3⟩ := get_at hv hf qp (reqs := [(0, n), (if prop.isSome then clips.length else 0, n)]) (by simp)
    have v := (vl q0).frames f0 f2
    obtain ⟨s1, s2, s3⟩ := plane_size (vl q0) (con q0) f2 (planes.getD 0 0).toNat
    obtain ⟨l0, u0⟩ := bad_inv (vl q0) (con q0) f2 b0
    obtain ⟨r1, r2, r3, r4⟩ := row_plane v (planes.getD 0 0).toNat
    generalize hfm : (queryVideoFormat cfGray c0.vi.format.sampleType c0.vi.format.bitsPerSample 0 0).2 = fm at *
    have bb : bps f0.fmt = bps fm := bytes_eq v.fmt v.known o1 (by rw [o2]; decide) (by rw [o4, s3])
    obtain ⟨g, e, h1, h2, h3, h4, h5, h6⟩ := newFrame2_ok (al := al) (fmt := fm) (w := f0.w (planes.getD 0 0).toNat)
      (h := f0.h (planes.getD 0 0).toNat) (srcs := [(f0, planes.getD 0 0)]) ⟨o1, by rw [o2]; decide, r2, r3, by rw [o5]; simp,
        by rw [o6]; simp, by rw [← bb]; exact r1, r4⟩ (by rw [o7]; rfl) (by
        intro j f p hj
        rcases j with _ | j
        · rw [List.getElem?_cons_zero, Option.some.injEq, Prod.mk.injEq] at hj
          obtain ⟨rfl, rfl⟩ := hj
          exact ⟨v, l0, u0, bb, by simp [ssw], by simp [ssh]⟩
        · exact absurd hj (by simp)) fp.props
    refine ⟨g, ?_, h1, by rw [h2, o2, hg], ⟨fp, p1, h5⟩, ?_⟩
    · refine frame_ok (n := n) ?_ (fun _ => h2) (fun _ => ⟨?_, ?_⟩)
      · show (getFrameFilter (clips ++ prop.toList) [(0, n), (if prop.isSome then clips.length else 0, n)] 0 n >>= fun src =>
          if planes.getD 0 0 ≥ src.fmt.numPlanes then .err "ShufflePlanes: invalid plane specified"
          else getFrameFilter (clips ++ prop.toList) [(0, n), (if prop.isSome then clips.length else 0, n)]
            (if prop.isSome then clips.length else 0) n >>= fun f3 =>
              newVideoFrame2 fm (src.w (planes.getD 0 0).toNat) (src.h (planes.getD 0 0).toNat) [(src, planes.getD 0 0)] f3.props) = _
        rw [f3, Res.bind_ok, if_neg (by omega), p3, Res.bind_ok, e]
      · rw [h3]; exact s1.symm
      · rw [h4]; exact s2.symm
    · intro i hi
      rw [h2, o7, if_pos rfl] at hi
      have : i = 0 := by omega
      subst this
      rw [Nat.zero_min]
      exact ⟨f0, f1, l0, u0, by rw [h2, o3, s3], by rw [h2, o4, s3], h6 0 f0 _ rfl⟩
  · obtain ⟨rfl, hinfo⟩ := create_eq_ok hcr
    obtain ⟨i1, i2, ssH, ssW, i3, i4, i5, i6, i7, i8, i9, i10, i11, i12⟩ := shuffleInfo_inv hi
    have hkk : vi.format.colorFamily ≠ cfUndefined := hk vi rfl
    rw [i9] at hkk
    obtain ⟨o1, o2, o3, o4, o5, o6, o7⟩ := query_ok hkk
    rw [← i9] at o1 o2 o3 o4 o5 o6 o7 hkk
    rw [if_neg hg] at o7
    obtain ⟨f0, a1, a2, a3⟩ := get_at hv hf (inAll q0) (reqs := [(0, n), (min 1 (clips.length - 1), n), (min 2 (clips.length - 1), n),
      (if prop.isSome then clips.length else 0, n)]) (by simp)
    obtain ⟨f1, a4, a5, a6⟩ := get_at hv hf (inAll q1) (reqs := [(0, n), (min 1 (clips.length - 1), n), (min 2 (clips.length - 1), n),
      (if prop.isSome then clips.length else 0, n)]) (by simp)
    obtain ⟨f2, a7, a8, a9⟩ := get_at hv hf (inAll q2) (reqs := [(0, n), (min 1 (clips.length - 1), n), (min 2 (clips.length - 1), n),
      (if prop.isSome then clips.length else 0, n)]) (by simp)
    obtain ⟨fp, p1, p2, p3⟩ := get_at hv hf qp (reqs := [(0, n), (min 1 (clips.length - 1), n), (min 2 (clips.length - 1), n),
      (if prop.isSome then clips.length else 0, n)]) (by simp)
    obtain ⟨s1, s2, s3⟩ := plane_size (vl q0) (con q0) a2 (planes.getD 0 0).toNat
    obtain ⟨s4, s5, s6⟩ := plane_size (vl q1) (con q1) a5 (planes.getD 1 0).toNat
    obtain ⟨s7, s8, s9⟩ := plane_size (vl q2) (con q2) a8 (planes.getD 2 0).toNat
    obtain ⟨l0, u0⟩ := bad_inv (vl q0) (con q0) a2 b0
    obtain ⟨l1, u1⟩ := bad_inv (vl q1) (con q1) a5 b1
    obtain ⟨l2, u2⟩ := bad_inv (vl q2) (con q2) a8 b2
    have w0 := (vl q0).frames f0 a2
    have w1 := (vl q1).frames f1 a5
    have w2 := (vl q2).frames f2 a8
    obtain ⟨r1, r2, r3, r4⟩ := row_plane w0 (planes.getD 0 0).toNat
    have bb0 : bps f0.fmt = bps vi.format := bytes_eq w0.fmt w0.known o1 hkk (by rw [o4, s3])
    have bb1 : bps f1.fmt = bps vi.format := bytes_eq w1.fmt w1.known o1 hkk (by rw [o4, s6, i5])
    have bb2 : bps f2.fmt = bps vi.format := bytes_eq w2.fmt w2.known o1 hkk (by rw [o4, s9, i6])
    have hW : f0.w (planes.getD 0 0).toNat = f1.w (planes.getD 1 0).toNat * 2 ^ ssW := by
      have : (f0.w (planes.getD 0 0).toNat : Int) = ((f1.w (planes.getD 1 0).toNat * 2 ^ ssW : Nat) : Int) := by
        rw [← s1, i4, s4]; simp
      exact_mod_cast this
    have hH : f0.h (planes.getD 0 0).toNat = f1.h (planes.getD 1 0).toNat * 2 ^ ssH := by
      have : (f0.h (planes.getD 0 0).toNat : Int) = ((f1.h (planes.getD 1 0).toNat * 2 ^ ssH : Nat) : Int) := by
        rw [← s2, i3, s5]; simp
      exact_mod_cast this
    have hW2 : f2.w (planes.getD 2 0).toNat = f1.w (planes.getD 1 0).toNat := by omega
    have hH2 : f2.h (planes.getD 2 0).toNat = f1.h (planes.getD 1 0).toNat := by omega
    have pos2 : ∀ k : Nat, 0 < 2 ^ k := fun k => Nat.two_pow_pos k
    obtain ⟨g, e, h1, h2, h3, h4, h5, h6⟩ := newFrame2_ok (al := al) (fmt := vi.format) (w := f0.w (planes.getD 0 0).toNat)
      (h := f0.h (planes.getD 0 0).toNat)
      (srcs := [(f0, planes.getD 0 0), (f1, planes.getD 1 0), (f2, planes.getD 2 0)])
      ⟨o1, hkk, r2, r3, by rw [o5, Int.toNat_natCast, hW]; exact Nat.dvd_mul_left _ _,
        by rw [o6, Int.toNat_natCast, hH]; exact Nat.dvd_mul_left _ _, by rw [← bb0]; exact r1, r4⟩ (by rw [o7]; rfl) (by
        intro j f p hj
        rcases j with _ | _ | _ | j
        · rw [List.getElem?_cons_zero, Option.some.injEq, Prod.mk.injEq] at hj
          obtain ⟨rfl, rfl⟩ := hj
          exact ⟨w0, l0, u0, bb0, by simp [ssw], by simp [ssh]⟩
        · have hj' : (f1, planes.getD 1 0) = (f, p) := Option.some.inj hj
          rw [Prod.mk.injEq] at hj'
          obtain ⟨rfl, rfl⟩ := hj'
          refine ⟨w1, l1, u1, bb1, ?_, ?_⟩
          · rw [hW, show ssw vi.format (0 + 1) = ssW by unfold ssw; rw [if_neg (by omega), o5]; rfl, Nat.mul_div_cancel _ (pos2 _)]
          · rw [hH, show ssh vi.format (0 + 1) = ssH by unfold ssh; rw [if_neg (by omega), o6]; rfl, Nat.mul_div_cancel _ (pos2 _)]
        · have hj' : (f2, planes.getD 2 0) = (f, p) := Option.some.inj hj
          rw [Prod.mk.injEq] at hj'
          obtain ⟨rfl, rfl⟩ := hj'
          refine ⟨w2, l2, u2, bb2, ?_, ?_⟩
          · rw [hW, hW2, show ssw vi.format (0 + 1 + 1) = ssW by unfold ssw; rw [if_neg (by omega), o5]; rfl, Nat.mul_div_cancel _ (pos2 _)]
          · rw [hH, hH2, show ssh vi.format (0 + 1 + 1) = ssH by unfold ssh; rw [if_neg (by omega), o6]; rfl, Nat.mul_div_cancel _ (pos2 _)]
        · exact absurd hj (by simp)) fp.props
    refine ⟨g, ?_, h1, by rw [h2, o2], ⟨fp, p1, h5⟩, ?_⟩
    · refine frame_ok (n := n) ?_ (fun _ => h2) (fun _ => ⟨?_, ?_⟩)
      · simp only [shuffleFilter]
        rw [a3, Res.bind_ok, a6, Res.bind_ok, a9, Res.bind_ok, p3, Res.bind_ok, i10, i11, s1, s2]
        exact e
      · rw [h3]; exact (i10.trans s1).symm
      · rw [h4]; exact (i11.trans s2).symm
    · intro i hi
      rw [h2, o7] at hi
      have : i = 0 ∨ i = 1 ∨ i = 2 := by omega
      rcases this with rfl | rfl | rfl
      · rw [Nat.zero_min]
        exact ⟨f0, a1, l0, u0, by rw [h2, o3, s3], by rw [h2, o4, s3], h6 0 f0 _ rfl⟩
      · exact ⟨f1, a4, l1, u1, by rw [h2, o3, s6, i7], by rw [h2, o4, s6, i5], h6 1 f1 _ rfl⟩
      · exact ⟨f2, a7, l2, u2, by rw [h2, o3, s9, i8], by rw [h2, o4, s9, i6], h6 2 f2 _ rfl⟩

/-- `ShufflePlanes` with one plane of a clip of constant format. -/
theorem gray_create {al : Nat} {c : PClip} (hv : ValidClip al c) (hc : isConstantVideoFormat c.vi = true) {i : Nat}
    (hi : (i : Int) < c.vi.format.numPlanes) : ∃ F, shufflePlanesCreate [c.vi] [(i : Int)] cfGray false = .ok (.filter F) ∧
      isValidVideoInfo F.vi = .ok true ∧ F.vi.numFrames = c.vi.numFrames ∧
      F.vi.format = (queryVideoFormat cfGray c.vi.format.sampleType c.vi.format.bitsPerSample 0 0).2 ∧
      F.vi.width = planeWidth c.vi i ∧ F.vi.height = planeHeight c.vi i := by
  obtain ⟨i1, i2, i3, i4, i5, i6, i7, i8⟩ := (info_iff c.vi).1 hv.info
  obtain ⟨f, hf, hm⟩ := at_some hv 0
  obtain ⟨s1, s2, s3⟩ := plane_size hv hc hm i
  obtain ⟨r1, r2, r3, r4⟩ := row_plane (hv.frames f hm) i
  have hkn : c.vi.format.colorFamily ≠ cfUndefined := by
    unfold isConstantVideoFormat at hc
    exact (of_decide_eq_true hc).2.2
  have kf := gray_known i1 hkn
  obtain ⟨o1, _⟩ := query_ok (c := cfGray) (t := c.vi.format.sampleType) (b := c.vi.format.bitsPerSample)
    (w := 0) (h := 0) (by rw [kf]; decide)
  have e : shufflePlanesCreate [c.vi] [(i : Int)] cfGray false = create (grayFilter { c.vi with
      format := (queryVideoFormat cfGray c.vi.format.sampleType c.vi.format.bitsPerSample 0 0).2
      width := planeWidth c.vi i, height := planeHeight c.vi i } 0 0 i) := by
    have hb : badPlane c.vi i = false := by
      unfold badPlane
      refine decide_eq_false ?_
      rintro (h | h)
      · omega
      · exact absurd h.2 (by omega)
    have hfam : family (int64ToIntS cfGray) = cfGray := by decide
    unfold shufflePlanesCreate
    simp only [hfam]
    simp [hc, hb]
  have hinfo : isValidVideoInfo { c.vi with
      format := (queryVideoFormat cfGray c.vi.format.sampleType c.vi.format.bitsPerSample 0 0).2
      width := planeWidth c.vi i, height := planeHeight c.vi i } = .ok true := by
    rw [info_iff]
    refine ⟨o1, i2, i3, ?_, ?_, i6, i7, ?_⟩
    · show 0 ≤ planeHeight c.vi i; omega
    · show 0 ≤ planeWidth c.vi i; omega
    · show planeHeight c.vi i ≠ 0 ↔ planeWidth c.vi i ≠ 0; omega
  rw [e]
  exact ⟨_, create_ok hinfo, hinfo, rfl, rfl, rfl, rfl⟩

/-- `C59_shuffle` can be applied, here to the second plane of a YUV clip. -/
example : ∃ C, shufflePlanesCreate ([exClip].map (·.vi)) [1] cfGray (none : Option PClip).isSome = .ok C ∧
    ∀ vi, outInfo C ([exClip] ++ (none : Option PClip).toList) = some vi → vi.format.colorFamily ≠ cfUndefined := by
  obtain ⟨F, e, _, _, h, _⟩ := gray_create exClip_valid (by decide) (i := 1) (by decide)
  refine ⟨_, e, ?_⟩
  intro vi hvi
  rw [← Option.some.inj hvi, h]
  decide

/-- The frames of such a filter. -/
theorem gray_frame {al : Nat} {c : PClip} (hv : ValidClip al c) {i : Nat} {F : PFilter}
    (hF : shufflePlanesCreate [c.vi] [(i : Int)] cfGray false = .ok (.filter F)) {n : Nat} {f : Frm} (hf : at? c n = some f)
    (junk : Junk) : ∃ g, F.frame [c] n junk = .ok g ∧ Valid al g ∧ g.fmt.colorFamily = cfGray ∧
      g.fmt.sampleType = f.fmt.sampleType ∧ g.fmt.bitsPerSample = f.fmt.bitsPerSample ∧ g.props = f.props ∧
      (img al g 0).Same (img al f i) := by
  obtain ⟨hcon, v0, v1, v2, n1, n2, _, _, r0, _, _, _, hcase⟩ := shuffle_inv hF
  have hkn : c.vi.format.colorFamily ≠ cfUndefined := by
    have hc := hcon c.vi (by simp)
    unfold isConstantVideoFormat at hc
    exact (of_decide_eq_true hc).2.2
  obtain ⟨g, h1, h2, h3, ⟨fp, h4, h5⟩, h6⟩ := C59_shuffle (clips := [c]) (prop := none) (by simpa using hv) (planes := [(i : Int)])
    (cf := cfGray) hF (n := n) (fs := [f]) (by simp [hf]) (by
      intro vi hvi
      rcases hcase with ⟨hg, hcr⟩ | ⟨hg, _⟩
      · obtain ⟨he, _⟩ := create_eq_ok hcr
        have hvi' : F.vi = vi := Option.some.inj hvi
        rw [← hvi', (Created.filter.inj he)]
        have ev : c.vi = v0 := Option.some.inj r0
        subst ev
        show (queryVideoFormat cfGray c.vi.format.sampleType c.vi.format.bitsPerSample 0 0).2.colorFamily ≠ _
        rw [gray_known ((info_iff _).1 hv.info).1 hkn]
        decide
      · exact absurd (by decide) hg) junk
  have h3' : g.fmt.colorFamily = cfGray := h3
  have hn : g.fmt.numPlanes = 1 := by
    have := ((C20_struct_check g.fmt h2.known).1.1 h2.fmt).2.2
    rw [h3', if_pos rfl] at this
    exact this
  obtain ⟨f', q1, q2, q3, q4, q5, q6⟩ := h6 0 (by omega)
  have ef : f = f' := Option.some.inj q1
  subst ef
  have efp : f = fp := Option.some.inj h4
  subst efp
  exact ⟨g, h1, h2, h3', q4, q5, h5, q6⟩

/-- C59. `SplitPlanes` makes one clip for each plane; each of them shows that plane of all frames, as a gray clip with the
properties of the input. -/
theorem C59_split {al : Nat} {c : PClip} (hv : ValidClip al c)
    (hcon : 0 < c.vi.width ∧ 0 < c.vi.height ∧ c.vi.format.colorFamily ≠ cfUndefined) :
    ∃ Cs, splitPlanesCreate c.vi = .ok Cs ∧ (Cs.length : Int) = c.vi.format.numPlanes ∧
      ∀ (i : Nat) C, Cs[i]? = some C → ∀ (n : Nat) f, at? c n = some f → ∀ junk, ∃ g, C.frame [c] n junk = .ok g ∧ Valid al g ∧
        g.fmt.colorFamily = cfGray ∧ g.fmt.sampleType = f.fmt.sampleType ∧ g.fmt.bitsPerSample = f.fmt.bitsPerSample ∧
        g.props = f.props ∧ (img al g 0).Same (img al f i) := by
  have hc : isConstantVideoFormat c.vi = true := by
    unfold isConstantVideoFormat
    exact decide_eq_true ⟨hcon.2.1, hcon.1, hcon.2.2⟩
  have i1 := ((info_iff c.vi).1 hv.info).1
  have hgood := (C20_struct_check c.vi.format hcon.2.2).1.1 i1
  unfold splitPlanesCreate
  rw [if_neg hcon.2.2]
  by_cases h1 : c.vi.format.numPlanes = 1
  · rw [if_pos h1]
    refine ⟨_, rfl, by rw [h1]; rfl, ?_⟩
    intro i C hC n f hf junk
    rcases i with _ | i
    · rw [List.getElem?_cons_zero, Option.some.injEq] at hC
      subst hC
      have hm := at_mem hf
      have hfm := hv.fmt f hm hcon.2.2
      refine ⟨f, pass_frame rfl hv hf junk, hv.frames f hm, ?_, rfl, rfl, rfl, Same.refl _⟩
      rw [hfm]
      have := hgood.2.2
      rw [h1] at this
      refine Decidable.byContradiction fun hh => ?_
      rw [if_neg hh] at this
      omega
    · exact absurd hC (by simp)
  · rw [if_neg h1]
    have h3 : c.vi.format.numPlanes = 3 := by
      have := hgood.2.2
      split at this <;> omega
    rw [h3]
    obtain ⟨F0, e0, _⟩ := gray_create hv hc (i := 0) (by omega)
    obtain ⟨F1, e1, _⟩ := gray_create hv hc (i := 1) (by omega)
    obtain ⟨F2, e2, _⟩ := gray_create hv hc (i := 2) (by omega)
    have e : splitLoop c.vi 0 (Int.toNat 3) = .ok [.filter F0, .filter F1, .filter F2] := by
      show splitLoop c.vi 0 3 = _
      simp only [splitLoop, Nat.zero_add, e0, e1, e2, Res.bind_ok, Nat.reduceAdd]
    rw [e]
    refine ⟨_, rfl, rfl, ?_⟩
    intro i C hC n f hf junk
    rcases i with _ | _ | _ | i
    · have : Created.filter F0 = C := Option.some.inj hC
      subst this
      exact gray_frame hv e0 hf junk
    · have : Created.filter F1 = C := Option.some.inj hC
      subst this
      exact gray_frame hv e1 hf junk
    · have : Created.filter F2 = C := Option.some.inj hC
      subst this
      exact gray_frame hv e2 hf junk
    · exact absurd hC (by simp)

example : 0 < exClip.vi.width ∧ 0 < exClip.vi.height ∧ exClip.vi.format.colorFamily ≠ cfUndefined := by decide

/-- C59. The clips of `SplitPlanes`, given to `ShufflePlanes` again, make the original clip. -/
theorem C59_split_shuffle {al : Nat} {c : PClip} (hv : ValidClip al c)
    (hcon : 0 < c.vi.width ∧ 0 < c.vi.height ∧ c.vi.format.colorFamily ≠ cfUndefined) (h3 : c.vi.format.numPlanes = 3)
    {C0 C1 C2 : Created} (hs : splitPlanesCreate c.vi = .ok [C0, C1, C2]) {d0 d1 d2 : PClip} (hd0 : Delivers C0 [c] d0)
    (hd1 : Delivers C1 [c] d1) (hd2 : Delivers C2 [c] d2) :
    ∃ C, shufflePlanesCreate [d0.vi, d1.vi, d2.vi] [0, 0, 0] c.vi.format.colorFamily false = .ok C ∧
      ∀ (n : Nat) f, (n : Int) < c.vi.numFrames → at? c n = some f → ∀ junk, ∃ g, C.frame [d0, d1, d2] n junk = .ok g ∧ g.fmt = f.fmt ∧
        g.width = f.width ∧ g.height = f.height ∧ g.props = f.props ∧
        ∀ p : Nat, (p : Int) < f.fmt.numPlanes → (img al g p).Same (img al f p) := by
  have hc : isConstantVideoFormat c.vi = true := by
    unfold isConstantVideoFormat
    exact decide_eq_true ⟨hcon.2.1, hcon.1, hcon.2.2⟩
  obtain ⟨i1, i2, i3, i4, i5, i6, i7, i8⟩ := (info_iff c.vi).1 hv.info
  have hgood := (C20_struct_check c.vi.format hcon.2.2).1.1 i1
  have kf := gray_known i1 hcon.2.2
  obtain ⟨o1, o2, o3, o4, o5, o6, o7⟩ := query_ok (c := cfGray) (t := c.vi.format.sampleType) (b := c.vi.format.bitsPerSample)
    (w := 0) (h := 0) (by rw [kf]; decide)
  have one : ∀ {i : Nat} {F : PFilter} {d : PClip}, (i : Int) < c.vi.format.numPlanes →
      shufflePlanesCreate [c.vi] [(i : Int)] cfGray false = .ok (.filter F) → Delivers (.filter F) [c] d →
      ValidClip al d ∧ d.vi.format = (queryVideoFormat cfGray c.vi.format.sampleType c.vi.format.bitsPerSample 0 0).2 ∧
      d.vi.width = planeWidth c.vi i ∧ d.vi.height = planeHeight c.vi i ∧ d.vi.numFrames = c.vi.numFrames ∧
      ∀ (n : Nat) f, (n : Int) < c.vi.numFrames → at? c n = some f → ∃ g, at? d n = some g ∧ g.props = f.props ∧
        (img al g 0).Same (img al f i) := by
    intro i F d hi hF hd
    obtain ⟨F', hF', g1, g2, g3, g4, g5⟩ := gray_create hv hc hi
    have : F = F' := Created.filter.inj (Res.ok.inj (hF.symm.trans hF'))
    subst this
    have ev : F.vi = d.vi := Option.some.inj hd.vi
    have vd : ValidClip al d := delivers_valid hd g1 (g2 ▸ hv.range) (by
      intro n junk g hg
      obtain ⟨f, hf, _⟩ := at_some hv n
      obtain ⟨g', q1, q2, _⟩ := gray_frame hv hF hf junk
      have : g = g' := Res.ok.inj (hg.symm.trans q1)
      exact this ▸ q2)
    rw [← ev]
    refine ⟨vd, g3, g4, g5, g2, ?_⟩
    intro n f hn hf
    obtain ⟨g, hg, _⟩ := at_some vd n
    obtain ⟨junk, hj⟩ := delivers_at hd vd (by rw [← ev, g2]; exact hn) hg
    obtain ⟨g', q1, _, _, _, _, q2, q3⟩ := gray_frame hv hF hf junk
    have : g = g' := Res.ok.inj (hj.symm.trans q1)
    subst this
    exact ⟨g, hg, q2, q3⟩
  obtain ⟨F0, e0, _⟩ := gray_create hv hc (i := 0) (by omega)
  obtain ⟨F1, e1, _⟩ := gray_create hv hc (i := 1) (by omega)
  obtain ⟨F2, e2, _⟩ := gray_create hv hc (i := 2) (by omega)
  have e : splitPlanesCreate c.vi = .ok [.filter F0, .filter F1, .filter F2] := by
    unfold splitPlanesCreate
    rw [if_neg hcon.2.2, if_neg (by omega), h3]
    show splitLoop c.vi 0 3 = _
    simp only [splitLoop, Nat.zero_add, e0, e1, e2, Res.bind_ok, Nat.reduceAdd]
  rw [e, Res.ok.injEq] at hs
  simp only [List.cons.injEq, and_true] at hs
  obtain ⟨rfl, rfl, rfl⟩ := hs
  obtain ⟨v0, a1, a2, a3, a4, a5⟩ := one (i := 0) (by omega) e0 hd0
  obtain ⟨v1, b1, b2, b3, b4, b5⟩ := one (i := 1) (by omega) e1 hd1
  obtain ⟨v2, c1, c2, c3, c4, c5⟩ := one (i := 2) (by omega) e2 hd2
  obtain ⟨f0, hf0, hm0⟩ := at_some hv 0
  have vf := hv.frames f0 hm0
  obtain ⟨s1, s2, s3⟩ := plane_size hv hc hm0 1
  obtain ⟨t1, t2, t3⟩ := plane_size hv hc hm0 0
  obtain ⟨r1, r2, r3, r4⟩ := row_plane vf 1
  obtain ⟨u1, u2, u3, u4⟩ := row_plane vf 0
  have p12 : planeWidth c.vi 2 = planeWidth c.vi 1 ∧ planeHeight c.vi 2 = planeHeight c.vi 1 := by
    unfold planeWidth planeHeight ssw ssh; simp
  have hfam : family (int64ToIntS c.vi.format.colorFamily) = c.vi.format.colorFamily ∧ c.vi.format.colorFamily ≠ cfGray ∧
      (c.vi.format.colorFamily = cfRGB ∨ c.vi.format.colorFamily = cfYUV) := by
    have hg := hgood.2.2
    have hne : c.vi.format.colorFamily ≠ cfGray := fun hh => by rw [if_pos hh] at hg; omega
    rcases hgood.1.1 with h | h | h
    · exact absurd h hne
    · rw [h]; exact ⟨by decide, by decide, Or.inl rfl⟩
    · rw [h]; exact ⟨by decide, by decide, Or.inr rfl⟩
  have cons : ∀ {d : PClip} {i : Nat}, d.vi.format = (queryVideoFormat cfGray c.vi.format.sampleType c.vi.format.bitsPerSample 0 0).2 →
      0 < d.vi.width → 0 < d.vi.height → isConstantVideoFormat d.vi = true ∧ badPlane d.vi 0 = false := by
    intro d i h1 h2 h3
    constructor
    · unfold isConstantVideoFormat
      refine decide_eq_true ⟨h3, h2, ?_⟩
      rw [h1, o2]; decide
    · unfold badPlane
      refine decide_eq_false ?_
      rw [h1, o7]
      simp
  obtain ⟨x1, x2⟩ := cons (i := 0) a1 (by omega) (by omega)
  obtain ⟨y1, y2⟩ := cons (i := 1) b1 (by omega) (by omega)
  obtain ⟨z1, z2⟩ := cons (i := 2) c1 (by omega) (by omega)
  have pw : ∀ d : PClip, planeWidth d.vi 0 = d.vi.width ∧ planeHeight d.vi 0 = d.vi.height := by
    intro d; unfold planeWidth planeHeight ssw ssh; simp
  have ssl : c.vi.format.subSamplingW.toNat < 6 ∧ c.vi.format.subSamplingH.toNat < 6 ∧ 0 ≤ c.vi.format.subSamplingW ∧ 0 ≤ c.vi.format.subSamplingH := by
    obtain ⟨_, _, hw, hh, _⟩ := hgood.1
    omega
  have eW : findSubSampling (planeWidth d0.vi 0) (planeWidth d1.vi 0) 0 6 = some c.vi.format.subSamplingW.toNat := by
    rw [(pw d0).1, (pw d1).1, a2, b2, t1, s1]
    have hdv := vf.modW
    rw [t3] at hdv
    have : (f0.w 0 : Int) = f0.w 1 * 2 ^ c.vi.format.subSamplingW.toNat := by
      have : f0.w 0 = f0.w 1 * 2 ^ c.vi.format.subSamplingW.toNat := by
        unfold Frm.w ssw
        rw [if_pos rfl, if_neg (by omega), t3, Nat.pow_zero, Nat.div_one, Nat.div_mul_cancel hdv]
      rw [this]; simp
    rw [this]
    exact findSub_eq (by omega) (by omega) (by omega)
  have eH : findSubSampling (planeHeight d0.vi 0) (planeHeight d1.vi 0) 0 6 = some c.vi.format.subSamplingH.toNat := by
    rw [(pw d0).2, (pw d1).2, a3, b3, t2, s2]
    have hdv := vf.modH
    rw [t3] at hdv
    have : (f0.h 0 : Int) = f0.h 1 * 2 ^ c.vi.format.subSamplingH.toNat := by
      have : f0.h 0 = f0.h 1 * 2 ^ c.vi.format.subSamplingH.toNat := by
        unfold Frm.h ssh
        rw [if_pos rfl, if_neg (by omega), t3, Nat.pow_zero, Nat.div_one, Nat.div_mul_cancel hdv]
      rw [this]; simp
    rw [this]
    exact findSub_eq (by omega) (by omega) (by omega)
  have hq : (queryVideoFormat c.vi.format.colorFamily d0.vi.format.sampleType d0.vi.format.bitsPerSample
      (c.vi.format.subSamplingW.toNat : Int) (c.vi.format.subSamplingH.toNat : Int)).2 = c.vi.format := by
    rw [a1, o3, o4, Int.toNat_of_nonneg ssl.2.2.1, Int.toNat_of_nonneg ssl.2.2.2, (C20_struct_check c.vi.format hcon.2.2).2.1 hgood]
  have einfo : shuffleInfo c.vi.format.colorFamily d0.vi d1.vi d2.vi 0 0 0 = .ok { d0.vi with
      format := c.vi.format, width := planeWidth d0.vi 0, height := planeHeight d0.vi 0,
      numFrames := max (max d0.vi.numFrames d1.vi.numFrames) d2.vi.numFrames } := by
    unfold shuffleInfo
    rw [if_neg (by rw [(pw d1).1, (pw d1).2, (pw d2).1, (pw d2).2, b2, b3, c2, c3]; omega), eH, eW]
    simp only
    rw [if_neg (by rw [a1, b1, c1]; simp), if_neg, hq]
    rintro ⟨hr, hh⟩
    have := hgood.1.2.2.2.2 (by rw [hr]; decide)
    omega
  have hinfo : isValidVideoInfo { d0.vi with
      format := c.vi.format, width := planeWidth d0.vi 0, height := planeHeight d0.vi 0,
      numFrames := max (max d0.vi.numFrames d1.vi.numFrames) d2.vi.numFrames } = .ok true := by
    obtain ⟨j1, j2, j3, j4, j5, j6, j7, j8⟩ := (info_iff d0.vi).1 v0.info
    rw [info_iff]
    refine ⟨i1, j2, j3, ?_, ?_, ?_, j7, ?_⟩
    · show 0 ≤ planeHeight d0.vi 0; rw [(pw d0).2]; exact j4
    · show 0 ≤ planeWidth d0.vi 0; rw [(pw d0).1]; exact j5
    · show 1 ≤ max (max d0.vi.numFrames d1.vi.numFrames) d2.vi.numFrames; omega
    · show planeHeight d0.vi 0 ≠ 0 ↔ planeWidth d0.vi 0 ≠ 0; rw [(pw d0).1, (pw d0).2]; exact j8
  have eC : shufflePlanesCreate [d0.vi, d1.vi, d2.vi] [0, 0, 0] c.vi.format.colorFamily false = .ok (.filter (shuffleFilter { d0.vi with
      format := c.vi.format, width := planeWidth d0.vi 0, height := planeHeight d0.vi 0,
      numFrames := max (max d0.vi.numFrames d1.vi.numFrames) d2.vi.numFrames } 0 1 2 0 0 0 0)) := by
    have hcr := create_ok (f := shuffleFilter { d0.vi with
      format := c.vi.format, width := planeWidth d0.vi 0, height := planeHeight d0.vi 0,
      numFrames := max (max d0.vi.numFrames d1.vi.numFrames) d2.vi.numFrames } 0 1 2 0 0 0 0) hinfo
    unfold shufflePlanesCreate
    simp only [hfam.1]
    rw [if_neg (by rcases hfam.2.2 with h | h <;> simp [h]), if_neg hfam.2.1]
    simp only [List.length_cons, List.length_nil, Nat.reduceAdd, Nat.lt_irrefl, gt_iff_lt, if_false, List.any_cons, List.any_nil,
      x1, y1, z1, Bool.not_true, Bool.or_false, Bool.false_eq_true, ge_iff_le, Nat.reduceLeDiff, if_true, List.getD_cons_zero,
      List.getD_cons_succ, List.getElem?_cons_zero, List.getElem?_cons_succ, x2, y2, z2, Bool.and_false, hfam.2.1, Int.toNat_zero]
    rw [einfo, Res.bind_ok]
    exact hcr
  refine ⟨_, eC, ?_⟩
  intro n f hn hf junk
  obtain ⟨g0, k1, k2, k3⟩ := a5 n f hn hf
  obtain ⟨g1, k4, k5, k6⟩ := b5 n f hn hf
  obtain ⟨g2, k7, k8, k9⟩ := c5 n f hn hf
  obtain ⟨g, m1, m2, m3, ⟨fp, m4, m5⟩, m6⟩ := C59_shuffle (al := al) (clips := [d0, d1, d2]) (prop := none)
    (by simp [v0, v1, v2]) (planes := [0, 0, 0]) (cf := c.vi.format.colorFamily) eC (n := n) (fs := [g0, g1, g2]) (by simp [k1, k4, k7])
    (by intro vi hvi; rw [← Option.some.inj hvi]; exact hcon.2.2) junk
  have hm := at_mem hf
  obtain ⟨w1, w2, w3⟩ := plane_size hv hc hm 0
  have efp : g0 = fp := Option.some.inj m4
  subst efp
  have chk := frame_check (f := shuffleFilter _ 0 1 2 0 0 0 0) m1
  have gfm : g.fmt = f.fmt := by
    rw [w3]
    exact fmt_eq m2.fmt m2.known i1 (chk.1 hcon.2.2)
  have gsz := chk.2 (by
    show planeWidth d0.vi 0 ≠ 0 ∨ planeHeight d0.vi 0 ≠ 0
    rw [(pw d0).1, (pw d0).2]; omega)
  have gw : (g.width : Int) = planeWidth d0.vi 0 := gsz.1
  have gh : (g.height : Int) = planeHeight d0.vi 0 := gsz.2
  rw [(pw d0).1, a2, w1] at gw
  rw [(pw d0).2, a3, w2] at gh
  have f0w : f.w 0 = f.width := by unfold Frm.w ssw; simp
  have f0h : f.h 0 = f.height := by unfold Frm.h ssh; simp
  refine ⟨g, m1, gfm, by omega, by omega, by rw [m5, k2], ?_⟩
  intro p hp
  rw [w3, h3] at hp
  have hgp : g.fmt.numPlanes = 3 := by rw [gfm, w3, h3]
  have : p = 0 ∨ p = 1 ∨ p = 2 := by omega
  rcases this with rfl | rfl | rfl
  · obtain ⟨f', q1, _, _, _, _, q2⟩ := m6 0 (by omega)
    have ef : g0 = f' := Option.some.inj q1
    subst ef
    exact Same.trans q2 k3
  · obtain ⟨f', q1, _, _, _, _, q2⟩ := m6 1 (by omega)
    have ef : g1 = f' := Option.some.inj q1
    subst ef
    exact Same.trans q2 k6
  · obtain ⟨f', q1, _, _, _, _, q2⟩ := m6 2 (by omega)
    have ef : g2 = f' := Option.some.inj q1
    subst ef
    exact Same.trans q2 k9

/-- There are such clips. -/
example : ∃ C0 C1 C2 d0 d1 d2, splitPlanesCreate exClip.vi = .ok [C0, C1, C2] ∧ Delivers C0 [exClip] d0 ∧ Delivers C1 [exClip] d1 ∧
    Delivers C2 [exClip] d2 := by
  have hc : isConstantVideoFormat exClip.vi = true := by decide
  have one : ∀ i : Nat, (i : Int) < 3 → ∃ F d, shufflePlanesCreate [exClip.vi] [(i : Int)] cfGray false = .ok (.filter F) ∧
      Delivers (.filter F) [exClip] d := by
    intro i hi
    obtain ⟨F, e, _, g2, _⟩ := gray_create exClip_valid hc (i := i) hi
    obtain ⟨d, hd⟩ := exists_delivers (c := .filter F) (clips := [exClip]) rfl (by rw [g2]; decide) (fun n => by
      obtain ⟨f, hf, _⟩ := at_some exClip_valid n
      obtain ⟨g, q, _⟩ := gray_frame exClip_valid e hf (fun _ _ => 0)
      exact ⟨g, q⟩)
    exact ⟨F, d, e, hd⟩
  obtain ⟨F0, d0, e0, h0⟩ := one 0 (by omega)
  obtain ⟨F1, d1, e1, h1⟩ := one 1 (by omega)
  obtain ⟨F2, d2, e2, h2⟩ := one 2 (by omega)
  refine ⟨_, _, _, d0, d1, d2, ?_, h0, h1, h2⟩
  show splitLoop exClip.vi 0 3 = _
  simp only [splitLoop, Nat.zero_add, e0, e1, e2, Res.bind_ok, Nat.reduceAdd]

/-- A gray clip with one square frame. -/
def squareClip (n : Nat) : PClip :=
  ⟨⟨⟨cfGray, stInteger, 8, 1, 0, 0, 1⟩, 25, 1, n, n, 1⟩, [mkFrame 32 ⟨cfGray, stInteger, 8, 1, 0, 0, 1⟩ n n exPx Dict.empty]⟩

theorem squareClip_valid {n : Nat} (h : 0 < n) (h2 : (n : Int) ≤ INT_MAX) : ValidClip 32 (squareClip n) := by
  have geo : Geo ⟨cfGray, stInteger, 8, 1, 0, 0, 1⟩ n n := ⟨by decide, by decide, h, h, by simp, by simp, by simpa [bps] using h2, h2⟩
  refine ⟨(info_iff _).2 ?_, rfl, (by decide : (1 : Int) ≤ INT_MAX), ?_, ?_, ?_⟩
  · have := (info_iff _).1 exClip_valid.info
    refine ⟨(by decide : isValidVideoStruct ⟨cfGray, stInteger, 8, 1, 0, 0, 1⟩ = true), this.2.1, this.2.2.1, ?_, ?_, (by decide : (1 : Int) ≤ 1), this.2.2.2.2.2.2.1, Iff.rfl⟩
    · show (0 : Int) ≤ n; omega
    · show (0 : Int) ≤ n; omega
  · intro f hf
    rw [List.mem_singleton.1 hf]
    exact mkFrame_valid geo _ _
  · intro f hf _
    rw [List.mem_singleton.1 hf]; rfl
  · intro f hf _
    rw [List.mem_singleton.1 hf]; exact ⟨rfl, rfl⟩

/-- C59 is violated if the first plane is 32 times as wide as the others: there is no such format, but the result of the
query is ignored. Instead of an error there is a clip without a format, and its frames have no planes. -/
theorem C59_shuffle_refuted :
    ValidClip 32 (squareClip 32) ∧ ValidClip 32 (squareClip 1) ∧
    ∃ F, shufflePlanesCreate [(squareClip 32).vi, (squareClip 1).vi] [0, 0, 0] cfYUV false = .ok (.filter F) ∧
      F.vi.format = VFmt.zero ∧ ∃ g, F.frame [squareClip 32, squareClip 1] 0 (fun _ _ => 0) = .ok g ∧ g.planes = [] := by
  refine ⟨squareClip_valid (by decide) (by decide), squareClip_valid (by decide) (by decide), ?_⟩
  have e : shufflePlanesCreate [(squareClip 32).vi, (squareClip 1).vi] [0, 0, 0] cfYUV false =
      create (shuffleFilter { (squareClip 32).vi with format := VFmt.zero } 0 1 1 0 0 0 0) := rfl
  have hinfo : isValidVideoInfo { (squareClip 32).vi with format := VFmt.zero } = .ok true := by
    have := (info_iff _).1 exClip_valid.info
    exact (info_iff _).2 ⟨by decide, this.2.1, this.2.2.1, by decide, by decide, by decide, this.2.2.2.2.2.2.1, by decide⟩
  exact ⟨_, e.trans (create_ok hinfo), rfl, _, rfl, rfl⟩

/-- The clip with frames of any size, format YUV420P8. -/
def anySize : PClip := ⟨⟨yuv420, 25, 1, 0, 0, 1⟩, [mkFrame 32 yuv420 8 8 exPx Dict.empty]⟩

/-- C59 is violated by `SplitPlanes` for clips whose frames differ in size: the error of `ShufflePlanes` is not looked at,
the process ends. -/
theorem C59_split_refuted : ValidClip 32 anySize ∧ ∃ m, splitPlanesCreate anySize.vi = .fatal m := by
  refine ⟨⟨(info_iff _).2 ?_, rfl, by decide, ?_, ?_, ?_⟩, _, rfl⟩
  · have := (info_iff _).1 exClip_valid.info
    exact ⟨this.1, this.2.1, this.2.2.1, by decide, by decide, by decide, this.2.2.2.2.2.2.1, by decide⟩
  · intro f hf
    rw [List.mem_singleton.1 hf]
    exact mkFrame_valid yuv_geo _ _
  · intro f hf _
    rw [List.mem_singleton.1 hf]; rfl
  · intro f hf h
    exact absurd h (by decide)

/-- C59: the color families are those of the API; the values of version 3 are taken as well: gray, RGB, YUV and YCoCg, which
is YUV now. -/
theorem C59_families : family 1000000 = cfGray ∧ family 2000000 = cfRGB ∧ family 3000000 = cfYUV ∧ family 4000000 = cfYUV ∧
    ∀ cf : Int, cf < 1000000 → family cf = cf := by
  refine ⟨rfl, rfl, rfl, rfl, ?_⟩
  intro cf h
  unfold family
  rw [if_neg (by omega), if_neg (by omega), if_neg (by omega)]

/-- C59: more planes than the result has are refused, and families that do not exist. -/
theorem C59_count_refused (clips : List VInfo) (planes : List Int) (cf : Int) (p : Bool)
    (h : (family (int64ToIntS cf) ≠ cfGray ∧ family (int64ToIntS cf) ≠ cfRGB ∧ family (int64ToIntS cf) ≠ cfYUV) ∨
      (family (int64ToIntS cf) = cfGray ∧ (clips.length > 1 ∨ planes.length > 1)) ∨ clips.length > 3 ∨ planes.length > 3) :
    ∃ m, shufflePlanesCreate clips planes cf p = .err m := by
  unfold shufflePlanesCreate
  dsimp only
  by_cases h1 : family (int64ToIntS cf) ≠ cfRGB ∧ family (int64ToIntS cf) ≠ cfYUV ∧ family (int64ToIntS cf) ≠ cfGray
  · rw [if_pos h1]; exact ⟨_, rfl⟩
  · rw [if_neg h1]
    by_cases h2 : clips.length > (if family (int64ToIntS cf) = cfGray then 1 else 3)
    · rw [if_pos h2]; exact ⟨_, rfl⟩
    · rw [if_neg h2, if_pos]
      · exact ⟨_, rfl⟩
      · by_cases h3 : family (int64ToIntS cf) = cfGray
        · rw [if_pos h3] at h2 ⊢
          omega
        · rw [if_neg h3] at h2 ⊢
          omega

/-- Two planes of a gray clip. -/
example : ∃ m, shufflePlanesCreate [exClip.vi] [0, 1] cfGray false = .err m :=
  C59_count_refused _ _ _ _ (Or.inr (Or.inl ⟨rfl, Or.inr (by decide)⟩))

/-- C59: RGB is made of planes of the same size only. -/
theorem C59_rgb_same_size {v0 v1 v2 : VInfo} {p0 p1 p2 : Nat} {cf : Int} {prop : Bool} {C : Created}
    (hf : family (int64ToIntS cf) = cfRGB) (hC : shufflePlanesCreate [v0, v1, v2] [(p0 : Int), p1, p2] cf prop = .ok C) :
    (planeWidth v1 p1 = planeWidth v0 p0 ∧ planeHeight v1 p1 = planeHeight v0 p0) ∧
      planeWidth v2 p2 = planeWidth v0 p0 ∧ planeHeight v2 p2 = planeHeight v0 p0 := by
  have ng : cfRGB ≠ cfGray := by decide
  have key : ∃ vi, shuffleInfo cfRGB v0 v1 v2 p0 p1 p2 = .ok vi := by
    unfold shufflePlanesCreate at hC
    dsimp only at hC
    rw [hf] at hC
    have hng : ¬ cfRGB = cfGray := ng
    simp only [if_neg hng] at hC
    rw [if_neg (by simp), if_neg (by simp), if_neg (by simp)] at hC
    split at hC
    · exact absurd hC (by simp)
    · simp only [List.length_cons, List.length_nil, List.getElem?_cons_zero] at hC
      split at hC
      · rename_i w0 w1 w2 h0 h1 h2
        cases h0
        cases h1
        cases h2
        split at hC
        · exact absurd hC (by simp)
        · obtain ⟨vi, e, _⟩ := bind_eq_ok hC
          exact ⟨vi, e⟩
      · exact absurd hC (by simp)
  obtain ⟨vi, e⟩ := key
  unfold shuffleInfo at e
  by_cases h1 : planeWidth v1 p1 ≠ planeWidth v2 p2 ∨ planeHeight v1 p1 ≠ planeHeight v2 p2
  · rw [if_pos h1] at e; exact absurd e (by simp)
  · rw [if_neg h1] at e
    split at e
    · rename_i a b ha hb
      split at e
      · exact absurd e (by simp)
      · by_cases h2 : cfRGB = cfRGB ∧ (a ≠ 0 ∨ b ≠ 0)
        · rw [if_pos h2] at e; exact absurd e (by simp)
        · have za : a = 0 := by omega
          have zb : b = 0 := by omega
          have q1 := (findSub_ok ha).1
          have q2 := (findSub_ok hb).1
          rw [za] at q1
          rw [zb] at q2
          omega
    · exact absurd e (by simp)

/-- Chroma planes of half the size are refused. -/
example (C : Created) : shufflePlanesCreate [exClip.vi, exClip.vi, exClip.vi] [0, 1, 2] cfRGB false ≠ .ok C := by
  intro h
  have := (C59_rgb_same_size (p0 := 0) (p1 := 1) (p2 := 2) rfl h).1.1
  exact absurd this (by decide)

end VS.Pix
