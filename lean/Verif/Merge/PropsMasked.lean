import Verif.Merge.PropsPremul

/-! # C66: MaskedMerge -/

namespace VS.Merge
open VS VS.Format VS.Map VS.Map.Spec VS.Pix VS.Pix.Spec VS.Point VS.Point.Spec VS.Merge.Spec

/-- C66: where the mask is zero the result is the first clip, where it is full the second one. -/
theorem C66_ends {mx : Int} (h : 0 < mx) (a b : Int) : masked mx 0 a b = a ∧ masked mx mx a b = b := by
  unfold masked nearest
  rw [Int.sub_zero, Int.zero_mul, Int.add_zero, Int.sub_self, Int.zero_mul, Int.zero_add]
  have key : ∀ c : Int, (2 * (mx * c) + mx) / (2 * mx) = c := by
    intro c
    have e : 2 * (mx * c) + mx = mx + 2 * mx * c := by grind
    rw [e, Int.add_mul_ediv_left _ _ (by omega), Int.ediv_eq_zero_of_lt (by omega) (by omega)]
    omega
  exact ⟨key a, key b⟩

theorem limited_le {x mx : Int} (h : 0 ≤ mx) : limited x mx ≤ mx := by
  unfold limited
  split
  · exact h
  · split <;> omega

/-- C66: a merged sample is not outside of the range between the two samples. -/
theorem C66_between {mx m : Int} (h0 : 0 < mx) (h1 : 0 ≤ m) (h2 : m ≤ mx) (a b : Int) :
    min a b ≤ masked mx m a b ∧ masked mx m a b ≤ max a b := by
  unfold masked nearest
  have e : (mx - m) * a + m * b = mx * a + m * (b - a) := by grind
  rw [e, Int.le_ediv_iff_mul_le (by omega)]
  refine ⟨?_, Int.le_of_lt_add_one ((Int.ediv_lt_iff_lt_mul (by omega)).2 ?_)⟩
  · by_cases h : a ≤ b
    · have h3 : 0 ≤ m * (b - a) := Int.mul_nonneg (by omega) (by omega)
      rw [Int.min_eq_left h]
      grind
    · have h3 : 0 ≤ (mx - m) * (a - b) := Int.mul_nonneg (by omega) (by omega)
      rw [Int.min_eq_right (by omega)]
      grind
  · by_cases h : a ≤ b
    · have h3 : 0 ≤ (mx - m) * (b - a) := Int.mul_nonneg (by omega) (by omega)
      rw [Int.max_eq_right h]
      grind
    · have h3 : 0 ≤ m * (a - b) := Int.mul_nonneg (by omega) (by omega)
      rw [Int.max_eq_left (by omega)]
      grind

example : masked 255 128 10 20 = 15 ∧ masked 1023 1 0 1023 = 1 := by decide

/-! ## Creation -/

theorem useFirst_eq (mask : VInfo) (fp : Option Int) :
    (decide (fp.getD 0 ≠ 0) || decide (mask.format.numPlanes = 1)) = decide (UseFirst mask fp) := by
  unfold UseFirst
  rw [Bool.eq_iff_iff, Bool.or_eq_true, decide_eq_true_iff, decide_eq_true_iff]
  exact ⟨fun h => decide_eq_true h, fun h => of_decide_eq_true h⟩

/-- What a mask with the right size and number of bits has to fulfill. -/
theorem mask_iff {al : Nat} {a mask : PClip} (ha : ValidClip al a) (hm : ValidClip al mask) (hc : Constant a.vi) (fp : Option Int) :
    ¬ (mask.vi.width ≠ a.vi.width ∨ mask.vi.height ≠ a.vi.height ∨
      mask.vi.format.bitsPerSample ≠ a.vi.format.bitsPerSample ∨
      (isSameVideoFormat mask.vi.format a.vi.format = false ∧ mask.vi.format.colorFamily ≠ cfGray ∧
        decide (UseFirst mask.vi fp) = false)) ↔ MaskOk a.vi mask.vi fp := by
  unfold MaskOk
  have same : isSameVideoFormat mask.vi.format a.vi.format = true ↔ mask.vi.format = a.vi.format := by
    constructor
    · intro h
      have hk : mask.vi.format.colorFamily ≠ cfUndefined := by
        unfold isSameVideoFormat at h
        rw [(of_decide_eq_true h).1]; exact hc.2.2
      exact fmt_eq (struct_of hm) hk (struct_of ha) h
    · intro h
      rw [h]; unfold isSameVideoFormat; simp
  have gray : mask.vi.format.colorFamily = cfGray → UseFirst mask.vi fp := by
    intro h
    have := (good_of (struct_of hm) (by rw [h]; decide)).2.2
    rw [if_pos h] at this
    exact Or.inr this
  constructor
  · intro h
    refine ⟨by omega, by omega, by omega, ?_⟩
    by_cases u : UseFirst mask.vi fp
    · exact Or.inl u
    · right
      cases e : isSameVideoFormat mask.vi.format a.vi.format with
      | true => exact same.1 e
      | false => exact absurd (Or.inr (Or.inr (Or.inr ⟨e, fun g => u (gray g), decide_eq_false u⟩))) h
  · rintro ⟨h1, h2, h3, h4⟩ h
    rcases h with h | h | h | ⟨q1, q2, q3⟩
    · omega
    · omega
    · omega
    · rcases h4 with h4 | h4
      · rw [decide_eq_true h4] at q3
        exact absurd q3 (by simp)
      · rw [same.2 h4] at q1
        exact absurd q1 (by simp)

theorem maskedCreate_ok {al : Nat} (F : Floats) {a b mask : PClip} (ha : ValidClip al a) (hb : ValidClip al b)
    (hm : ValidClip al mask) {planes : List Int} {fp pre : Option Int} (hw : Workable a.vi.format) (hc : Constant a.vi)
    (hf : Fit a.vi b.vi) (hk : MaskOk a.vi mask.vi fp) (hp : PlanesOk planes) :
    ∃ process, (∀ p : Nat, p < 3 → process.getD p false = decide (Wanted planes p)) ∧
      maskedCreate F al a.vi b.vi mask.vi planes fp pre =
        .ok (.filter (maskedFilter F al a.vi (decide (UseFirst mask.vi fp)) (decide (pre.getD 0 ≠ 0)) process)) := by
  obtain ⟨process, e, hpr⟩ := planes_ok "MaskedMerge" hp
  refine ⟨process, hpr, ?_⟩
  unfold maskedCreate
  dsimp only
  rw [useFirst_eq, (workable_iff _).2 hw, (constant_iff _).2 hc, (fit_iff ha hb hc).2 hf, if_neg (by decide), if_neg (by decide),
    if_neg ((mask_iff ha hm hc fp).2 hk), e, Res.bind_ok]
  exact create_ok ha.info

/-- C66: other clips and planes are refused. -/
theorem C66_masked_refused {al : Nat} (F : Floats) {a b mask : PClip} (ha : ValidClip al a) (hb : ValidClip al b)
    (hm : ValidClip al mask) {planes : List Int} {fp pre : Option Int}
    (h : ¬ (Workable a.vi.format ∧ Constant a.vi ∧ Fit a.vi b.vi ∧ MaskOk a.vi mask.vi fp ∧ PlanesOk planes)) :
    ∃ m, maskedCreate F al a.vi b.vi mask.vi planes fp pre = .err m := by
  unfold maskedCreate
  dsimp only
  rw [useFirst_eq]
  cases e3 : is8to16orFloat a.vi.format with
  | false => exact ⟨_, rfl⟩
  | true =>
    rw [if_neg (by decide)]
    cases e4 : isConstantVideoFormat a.vi with
    | false => exact ⟨_, rfl⟩
    | true =>
      cases e5 : isSameVideoInfo a.vi b.vi with
      | false => exact ⟨_, rfl⟩
      | true =>
        have hc := (constant_iff _).1 e4
        rw [if_neg (by decide)]
        by_cases hk : MaskOk a.vi mask.vi fp
        · rw [if_neg ((mask_iff ha hm hc fp).2 hk)]
          obtain ⟨m, e⟩ := planes_bad "MaskedMerge" (planes := planes)
            (fun c => h ⟨(workable_iff _).1 e3, hc, (fit_iff ha hb hc).1 e5, hk, c⟩)
          rw [e]
          exact ⟨m, rfl⟩
        · rw [if_pos (Decidable.not_not.1 (fun c => hk ((mask_iff ha hm hc fp).1 c)))]
          exact ⟨_, rfl⟩

/-! ## Frames -/

theorem resized_iff {a : PClip} {al : Nat} (ha : ValidClip al a) (hc : Constant a.vi) {mask : VInfo} {fp : Option Int}
    {planes : List Int} {process : List Bool} (hpr : ∀ p : Nat, p < 3 → process.getD p false = decide (Wanted planes p)) :
    maskResized a.vi (decide (UseFirst mask fp)) process = decide (Shrinks a.vi mask fp planes) := by
  unfold maskResized
  rw [hpr 1 (by decide), hpr 2 (by decide), Bool.eq_iff_iff, decide_eq_true_iff]
  unfold Shrinks
  simp only [Bool.and_eq_true, Bool.or_eq_true, decide_eq_true_iff]
  have hs := subsampled_iff (good_of (struct_of ha) hc.2.2)
  unfold subsampled at hs
  rw [decide_eq_true_iff] at hs
  constructor
  · rintro ⟨⟨⟨h1, h2⟩, h3⟩, h4⟩
    exact ⟨h1, hs.1 ⟨h2, h3⟩, h4⟩
  · rintro ⟨h1, h2, h3⟩
    exact ⟨⟨⟨h1, (hs.2 h2).1⟩, (hs.2 h2).2⟩, h3⟩

/-- The frame of the mask for the chroma planes. -/
theorem masked_small {al : Nat} (F : Floats) {a b mask : PClip} (ha : ValidClip al a) (hb : ValidClip al b)
    (hm : ValidClip al mask) (hkm : mask.vi.format.colorFamily ≠ cfUndefined) {planes : List Int} {fp : Option Int}
    {pre : Bool} (hc : Constant a.vi)
    (hk : MaskOk a.vi mask.vi fp) {process : List Bool}
    (hpr : ∀ p : Nat, p < 3 → process.getD p false = decide (Wanted planes p)) {small : List PClip}
    (hsm : Shrinks a.vi mask.vi fp planes → Smaller al a.vi small) {n : Nat} {f fm fs : Frm} (hf : at? a n = some f)
    (hfm : at? mask n = some fm)
    (hfs : if Shrinks a.vi mask.vi fp planes then ∃ s, small[locOf f.props]? = some s ∧ at? s n = some fs else fs = fm) :
    Valid al fm ∧ Valid al fs ∧
      (∀ p : Nat, (p : Int) < a.vi.format.numPlanes → Wanted planes p →
        ((maskPlane mask.vi fp p : Nat) : Int) < (maskFrame fm fs p).fmt.numPlanes ∧
        (maskFrame fm fs p).fmt.bitsPerSample = a.vi.format.bitsPerSample ∧
        bps (maskFrame fm fs p).fmt = bps f.fmt ∧ (maskFrame fm fs p).w (maskPlane mask.vi fp p) = f.w p ∧
        (maskFrame fm fs p).h (maskPlane mask.vi fp p) = f.h p) ∧
      getFrameFilter (a :: b :: mask :: small) ((maskedFilter F al a.vi (decide (UseFirst mask.vi fp)) pre process).reqs n)
        (if maskResized a.vi (decide (UseFirst mask.vi fp)) process then 3 + resolveChromaLocation f.props else 2) n = .ok fs := by
  obtain ⟨k1, k2, k3, k4⟩ := hk
  have gv := good_of (struct_of ha) hc.2.2
  have hnp := (fmtOk (struct_of ha) hc.2.2).planes
  obtain ⟨vf, f1, f2, f3⟩ := const_frame ha hc (at_mem hf)
  have hcm : Constant mask.vi := ⟨by rw [k1]; exact hc.1, by rw [k2]; exact hc.2.1, hkm⟩
  obtain ⟨vm, m1, m2, m3⟩ := const_frame hm hcm (at_mem hfm)
  have mnp := (fmtOk vm.fmt vm.known).planes
  have mbits : fm.fmt.bitsPerSample = a.vi.format.bitsPerSample := by rw [m1, k3]
  have mbps : bps fm.fmt = bps f.fmt := bytes_eq vm.fmt vm.known vf.fmt vf.known (by rw [mbits, f1])
  rw [resized_iff ha hc hpr]
  have hreq : (maskedFilter F al a.vi (decide (UseFirst mask.vi fp)) pre process).reqs n =
      if Shrinks a.vi mask.vi fp planes then (0, n) :: (1, n) :: (2, n) :: (List.range 6).map (fun l => (3 + l, n))
      else [(0, n), (1, n), (2, n)] := by
    show (if maskResized a.vi (decide (UseFirst mask.vi fp)) process then _ else _) = _
    rw [resized_iff ha hc hpr]
    by_cases c : Shrinks a.vi mask.vi fp planes
    · rw [decide_eq_true c, if_pos c]; rfl
    · rw [decide_eq_false c, if_neg c]; rfl
  rw [hreq]
  by_cases hss : Shrinks a.vi mask.vi fp planes
  · rw [if_pos hss] at hfs ⊢
    obtain ⟨s, es, hfs⟩ := hfs
    obtain ⟨s', es', hs⟩ := hsm hss _ (loc_lt f.props)
    rw [es, Option.some.injEq] at es'
    subst es'
    obtain ⟨v, v1, v2, v3⟩ := const_frame hs.valid hs.const (at_mem hfs)
    have eb : fs.fmt.bitsPerSample = a.vi.format.bitsPerSample := by rw [v1, hs.bits]
    have snp := (fmtOk v.fmt v.known).planes
    refine ⟨vm, v, ?_, ?_⟩
    · intro p hp _
      unfold maskPlane maskFrame
      rw [if_pos hss.1]
      by_cases c : p > 0
      · rw [if_pos c]
        exact ⟨by omega, eb, bytes_eq v.fmt v.known vf.fmt vf.known (by rw [eb, f1]), small_size hs (at_mem hfs) f1 f2 f3 c⟩
      · have p0 : p = 0 := by omega
        subst p0
        rw [if_neg c, w_first, h_first, w_first, h_first]
        exact ⟨by omega, mbits, mbps, by omega, by omega⟩
    · rw [decide_eq_true hss, if_pos rfl, loc_eq]
      refine get_ok (c := s) (by rw [Nat.add_comm]; exact es) hs.valid ?_ hfs
      refine List.mem_cons_of_mem _ (List.mem_cons_of_mem _ (List.mem_cons_of_mem _ ?_))
      exact List.mem_map.2 ⟨locOf f.props, List.mem_range.2 (loc_lt _), rfl⟩
  · rw [if_neg hss] at hfs ⊢
    subst hfs
    refine ⟨vm, vm, ?_, ?_⟩
    · intro p hp hwp
      have emf : maskFrame fs fs p = fs := by unfold maskFrame; split <;> rfl
      rw [emf]
      unfold maskPlane
      by_cases u : UseFirst mask.vi fp
      · rw [if_pos u, w_first, h_first]
        refine ⟨by omega, mbits, mbps, ?_⟩
        by_cases p0 : p = 0
        · subst p0
          rw [w_first, h_first]
          omega
        · have ns : ¬ Subsampled a.vi.format := by
            intro c
            refine hss ⟨u, c, ?_⟩
            have : p = 1 ∨ p = 2 := by omega
            rcases this with rfl | rfl
            · exact Or.inl hwp
            · exact Or.inr hwp
          have z := gv.1.2.2.1
          have z2 := gv.1.2.2.2.1
          have z1 : f.fmt.subSamplingW = 0 := by unfold Subsampled at ns; rw [f1]; omega
          have z3 : f.fmt.subSamplingH = 0 := by unfold Subsampled at ns; rw [f1]; omega
          rw [w_flat z1, h_flat z3]
          omega
      · rw [if_neg u]
        have e : mask.vi.format = a.vi.format := k4.resolve_left u
        have ef : fs.fmt = f.fmt := by rw [m1, f1, e]
        exact ⟨by rw [m1, e]; exact hp, mbits, mbps, w_eq ef (by omega) p, h_eq ef (by omega) p⟩
    · rw [decide_eq_false hss]
      simp only [Bool.false_eq_true, if_false]
      exact get_ok (i := 2) (c := mask) rfl hm (by simp) hfm

theorem masked_gives {al : Nat} (hal : AlignOk al) (F : Floats) {a b mask : PClip} (ha : ValidClip al a) (hb : ValidClip al b)
    (hm : ValidClip al mask) (hkm : mask.vi.format.colorFamily ≠ cfUndefined) {planes : List Int} {fp : Option Int}
    {pre : Bool} (hw : Workable a.vi.format) (hc : Constant a.vi)
    (hf : Fit a.vi b.vi) (hk : MaskOk a.vi mask.vi fp) {process : List Bool}
    (hpr : ∀ p : Nat, p < 3 → process.getD p false = decide (Wanted planes p)) {small : List PClip}
    (hsm : Shrinks a.vi mask.vi fp planes → Smaller al a.vi small) {n : Nat} {fa fb fm fs : Frm} (hfa : at? a n = some fa)
    (hfb : at? b n = some fb) (hfm : at? mask n = some fm)
    (hfs : if Shrinks a.vi mask.vi fp planes then ∃ s, small[locOf fa.props]? = some s ∧ at? s n = some fs else fs = fm)
    (hloc : Subsampled a.vi.format → Wanted planes 1 ∨ Wanted planes 2 → locOf fa.props = locOf fb.props)
    (hran : pre = true → a.vi.format.sampleType = stInteger → (∃ p : Nat, (p : Int) < a.vi.format.numPlanes ∧ Wanted planes p) →
      blackOf fa.props a.vi.format = blackOf fb.props a.vi.format)
    {S : Nat → Nat → Nat → Int} (hS : ∀ p x y : Nat, (p : Int) < a.vi.format.numPlanes → x < fa.w p → y < fa.h p →
      Wanted planes p → (maskOut F pre a.vi.format (planeOffset a.vi.format (getLimitedRangeOffset fa.props a.vi.format) p)
        (smp al fa p x y) (smp al fb p x y) (smp al (maskFrame fm fs p) (maskPlane mask.vi fp p) x y) : Int) = S p x y) :
    Gives al (.filter (maskedFilter F al a.vi (decide (UseFirst mask.vi fp)) pre process)) (a :: b :: mask :: small) n
      a.vi.format fa.width fa.height fa.props fun p x y => if Wanted planes p then S p x y else smp al fa p x y := by
  obtain ⟨vm, vs, hsz, hget⟩ := masked_small F (pre := pre) ha hb hm hkm hc hk hpr hsm hfa hfm hfs
  obtain ⟨va, a1, a2, a3⟩ := const_frame ha hc (at_mem hfa)
  obtain ⟨b1, b2, b3⟩ := fit_frame ha hb hc hf (at_mem hfa) (at_mem hfb)
  have vb := hb.frames fb (at_mem hfb)
  have gv := good_of (struct_of ha) hc.2.2
  have hnp := (fmtOk (struct_of ha) hc.2.2).planes
  have hproc : ∀ p : Nat, (p : Int) < a.vi.format.numPlanes → process.getD p false = decide (Wanted planes p) :=
    fun p hp => hpr p (by omega)
  have efirst : ∀ p : Nat, (if decide (UseFirst mask.vi fp) = true then 0 else p) = maskPlane mask.vi fp p := by
    intro p
    unfold maskPlane
    by_cases u : UseFirst mask.vi fp
    · rw [decide_eq_true u, if_pos rfl, if_pos u]
    · rw [decide_eq_false u, if_neg u]; rfl
  refine gives_of rfl a2.symm a3.symm ?_
  intro junk
  obtain ⟨g, e, v, g1, g2, g3, g4, g5⟩ := maskedFrame_ok (F := F) (first := decide (UseFirst mask.vi fp)) (pre := pre)
    (process := process) (align_pos hal) va vb vm vs a1 a2 a3 b1 b2 b3 hw
    (by
      rw [hpr 1 (by decide), hpr 2 (by decide), loc_eq, loc_eq]
      by_cases c : Subsampled a.vi.format ∧ (Wanted planes 1 ∨ Wanted planes 2)
      · have := hloc c.1 c.2
        rw [decide_eq_false (p := locOf fa.props ≠ locOf fb.props) (by omega), Bool.and_false]
      · by_cases c1 : Subsampled a.vi.format
        · have c2 : ¬ (Wanted planes 1 ∨ Wanted planes 2) := fun h => c ⟨c1, h⟩
          rw [decide_eq_false (fun h => c2 (Or.inl h)), decide_eq_false (fun h => c2 (Or.inr h))]
          rfl
        · rw [decide_eq_false (p := a.vi.format.subSamplingW > 0 ∨ a.vi.format.subSamplingH > 0) c1, Bool.and_false, Bool.false_and])
    (by
      intro p hp hw'
      rintro ⟨h1, h2, h3⟩
      have := hran h1 h2 ⟨p, hp, by rw [hproc p hp, decide_eq_true_iff] at hw'; exact hw'⟩
      rw [← black_eq gv, ← black_eq gv] at this
      omega)
    (by
      intro p hp hw'
      rw [hproc p hp, decide_eq_true_iff] at hw'
      obtain ⟨q1, q2, q3, q4, q5⟩ := hsz p hp hw'
      rw [efirst]
      exact ⟨q1, q3, q4, q5⟩) junk
  refine ⟨g, ?_, v, g1, g2, g3, g4, ?_⟩
  · show (getFrameFilter (a :: b :: mask :: small) ((maskedFilter F al a.vi (decide (UseFirst mask.vi fp)) pre process).reqs n) 0 n >>=
      fun s1 => getFrameFilter (a :: b :: mask :: small) ((maskedFilter F al a.vi (decide (UseFirst mask.vi fp)) pre process).reqs n)
        1 n >>= fun s2 => getFrameFilter (a :: b :: mask :: small)
          ((maskedFilter F al a.vi (decide (UseFirst mask.vi fp)) pre process).reqs n) 2 n >>= fun m =>
        getFrameFilter (a :: b :: mask :: small) ((maskedFilter F al a.vi (decide (UseFirst mask.vi fp)) pre process).reqs n)
          (if maskResized a.vi (decide (UseFirst mask.vi fp)) process then 3 + resolveChromaLocation s1.props else 2) n >>= fun m23 =>
        maskedFrame F al a.vi (decide (UseFirst mask.vi fp)) pre process s1 s2 m m23 junk) = _
    have m0 : ∀ j, j < 3 → (j, n) ∈ (maskedFilter F al a.vi (decide (UseFirst mask.vi fp)) pre process).reqs n := by
      intro j hj
      show _ ∈ (if maskResized a.vi _ process then _ else _)
      match j, hj with
      | 0, _ => split <;> simp
      | 1, _ => split <;> simp
      | 2, _ => split <;> simp
    rw [get_ok (i := 0) rfl ha (m0 0 (by decide)) hfa, Res.bind_ok, get_ok (i := 1) rfl hb (m0 1 (by decide)) hfb, Res.bind_ok,
      get_ok (i := 2) rfl hm (m0 2 (by decide)) hfm, Res.bind_ok, hget, Res.bind_ok, e]
  · intro p x y hp hx hy
    rw [g5 p x y hp hx hy, hproc p hp, efirst]
    by_cases w : Wanted planes p
    · rw [decide_eq_true w, if_pos rfl, if_pos w]
      refine hS p x y hp ?_ ?_ w
      · rw [← w_eq (show g.fmt = fa.fmt by rw [g1, a1]) g2]; exact hx
      · rw [← h_eq (show g.fmt = fa.fmt by rw [g1, a1]) g3]; exact hy
    · rw [decide_eq_false w, if_neg w]; rfl

/-- The arguments and frames of a call of MaskedMerge that gives a frame. -/
structure Case (al : Nat) (a b mask : PClip) (planes : List Int) (fp : Option Int) (small : List PClip) (n : Nat)
    (fa fb fm fs : Frm) : Prop where
  first : at? a n = some fa
  second : at? b n = some fb
  third : at? mask n = some fm
  chroma : ChromaMask a.vi mask.vi fp planes small n fa.props fm fs
  loc : Subsampled a.vi.format → Wanted planes 1 ∨ Wanted planes 2 → locOf fa.props = locOf fb.props

theorem byte_px (F : Floats) (pre : Bool) {o m v1 v2 : Nat} (ho : o < 256) (hm : m < 256) (h1 : v1 < 256) (h2 : v2 < 256) :
    ((maskKernel F .byte pre 8 o v1 v2 m % 256 ^ 1 : Nat) : Int) =
      if pre then limited (scaled 255 o (255 - m) v1 + v2) 255 else masked 255 m v1 v2 := by
  cases pre with
  | true =>
    have e := maskPreByte_ok ho hm h1 h2
    rw [if_pos rfl]
    have : (maskPreByte o m v1 v2 : Int) ≤ 255 := by rw [e]; exact limited_le (by decide)
    rw [← e]
    show ((maskPreByte o m v1 v2 % 256 ^ 1 : Nat) : Int) = _
    rw [Nat.mod_eq_of_lt (by omega)]
  | false =>
    have e := maskByte_ok hm h1 h2
    rw [if_neg (by decide)]
    have := (C66_between (mx := 255) (m := m) (by decide) (by omega) (by omega) v1 v2).2
    rw [← e] at this ⊢
    show ((maskByte m v1 v2 % 256 ^ 1 : Nat) : Int) = _
    rw [Nat.mod_eq_of_lt (by omega)]

theorem word_px (F : Floats) (pre : Bool) {d o m v1 v2 : Nat} (h : 9 ≤ d) (h' : d ≤ 16) (ho : o < 2 ^ d) (hm : m < 2 ^ d)
    (h1 : v1 < 2 ^ d) (h2 : v2 < 2 ^ d) :
    ((maskKernel F .word pre d o v1 v2 m % 256 ^ 2 : Nat) : Int) =
      if pre then limited (scaled (2 ^ d - 1) o (2 ^ d - 1 - m) v1 + v2) (2 ^ d - 1) else masked (2 ^ d - 1) m v1 v2 := by
  obtain ⟨p1, p2, p3⟩ := pow_depth h h'
  have hpow : (2 : Int) ^ d = ((2 ^ d : Nat) : Int) := by push_cast; rfl
  cases pre with
  | true =>
    have e := maskPreWord_ok (v2 := v2) h h' ho hm h1
    rw [if_pos rfl, ← e]
    rw [hpow] at e
    unfold maskKernel
    dsimp only
    rw [if_pos rfl]
    generalize maskPreWord d o m v1 v2 = r at *
    generalize (2 ^ d : Nat) = N at *
    have : (r : Int) ≤ N - 1 := by rw [e]; exact limited_le (by omega)
    rw [Nat.mod_eq_of_lt (show r < 65536 by omega)]
  | false =>
    have e := maskWord_ok h h' hm h1 h2
    rw [if_neg (by decide), ← e]
    rw [hpow] at e
    unfold maskKernel
    dsimp only
    rw [if_neg (by decide)]
    generalize maskWord d m v1 v2 = r at *
    generalize (2 ^ d : Nat) = N at *
    have := (C66_between (mx := N - 1) (m := m) (by omega) (by omega) (by omega) v1 v2).2
    rw [← e] at this
    rw [Nat.mod_eq_of_lt (show r < 65536 by omega)]

theorem masked_integer {al : Nat} (hal : AlignOk al) (F : Floats) {a b mask : PClip} (ha : ValidClip al a) (hb : ValidClip al b)
    (hm : ValidClip al mask) (hkm : mask.vi.format.colorFamily ≠ cfUndefined) {planes : List Int} {fp : Option Int} {pre : Bool}
    (hw : Workable a.vi.format) (ht : a.vi.format.sampleType = stInteger) (hc : Constant a.vi)
    (hf : Fit a.vi b.vi) (hk : MaskOk a.vi mask.vi fp) {process : List Bool}
    (hpr : ∀ p : Nat, p < 3 → process.getD p false = decide (Wanted planes p)) {small : List PClip}
    (hsm : Shrinks a.vi mask.vi fp planes → Smaller al a.vi small) {n : Nat} {fa fb fm fs : Frm}
    (h : Case al a b mask planes fp small n fa fb fm fs)
    (hran : pre = true → (∃ p : Nat, (p : Int) < a.vi.format.numPlanes ∧ Wanted planes p) →
      blackOf fa.props a.vi.format = blackOf fb.props a.vi.format)
    (ra : InRange al fa) (rb : InRange al fb) (rm : InRange al fm) (rs : InRange al fs) :
    Gives al (.filter (maskedFilter F al a.vi (decide (UseFirst mask.vi fp)) pre process)) (a :: b :: mask :: small) n
      a.vi.format fa.width fa.height fa.props fun p x y =>
        if Wanted planes p then
          if pre then limited (scaled (maxOf a.vi.format) (zeroOf fa.props a.vi.format p)
            (maxOf a.vi.format - smp al (maskFrame fm fs p) (maskPlane mask.vi fp p) x y) (smp al fa p x y) +
              smp al fb p x y) (maxOf a.vi.format)
          else masked (maxOf a.vi.format) (smp al (maskFrame fm fs p) (maskPlane mask.vi fp p) x y) (smp al fa p x y) (smp al fb p x y)
        else smp al fa p x y := by
  refine masked_gives hal F ha hb hm hkm hw hc hf hk hpr hsm h.first h.second h.third h.chroma h.loc (fun h1 _ h2 => hran h1 h2) ?_
  intro p x y hp hx hy hwp
  have gv := good_of (struct_of ha) hc.2.2
  obtain ⟨vm, vs, hsz, _⟩ := masked_small F (pre := pre) ha hb hm hkm hc hk hpr hsm h.first h.third h.chroma
  obtain ⟨va, a1, a2, a3⟩ := const_frame ha hc (at_mem h.first)
  obtain ⟨b1, b2, b3⟩ := fit_frame ha hb hc hf (at_mem h.first) (at_mem h.second)
  obtain ⟨q1, q2, q3, q4, q5⟩ := hsz p hp hwp
  have l1 := ra p x y (a1 ▸ hp) hx hy
  rw [a1] at l1
  have l2 := rb p x y (by rw [b1, a1]; exact hp) (by rw [w_eq b1 b2]; exact hx) (by rw [h_eq b1 b3]; exact hy)
  rw [b1, a1] at l2
  have l3 : smp al (maskFrame fm fs p) (maskPlane mask.vi fp p) x y < 2 ^ a.vi.format.bitsPerSample.toNat := by
    rw [← q2]
    have rx : InRange al (maskFrame fm fs p) := by unfold maskFrame; split <;> assumption
    exact rx _ x y q1 (by rw [q4]; exact hx) (by rw [q5]; exact hy)
  obtain ⟨k, hkk, hkb, hko⟩ := kind_ok (struct_of ha) hw
  have n1 : (stFloat : Int) ≠ stInteger := by decide
  generalize smp al fa p x y = v1 at *
  generalize smp al fb p x y = v2 at *
  generalize smp al (maskFrame fm fs p) (maskPlane mask.vi fp p) x y = m at *
  rw [← zero_eq gv]
  have ho := offset_lt (f := a.vi.format) (by
    rcases gv.1.2.1 with ⟨_, h, _⟩ | ⟨_, h⟩ <;> omega) fa.props p
  generalize planeOffset a.vi.format (getLimitedRangeOffset fa.props a.vi.format) p = o at *
  unfold maskOut maxOf
  rw [hkk]
  cases k with
  | byte =>
    obtain ⟨_, b8, b1⟩ := hko
    rw [b8] at l1 l2 l3 ho ⊢
    rw [b1]
    exact byte_px F pre ho l3 l1 l2
  | word =>
    obtain ⟨_, b9, b16, b2⟩ := hko
    rw [b2]
    exact word_px F pre (by omega) (by omega) ho l3 l1 l2
  | single => exact absurd (hko.1.symm.trans ht) n1
  | half => exact absurd (hko.1.symm.trans ht) n1

/-- C66: MaskedMerge gives the mean of the two samples with the weight of the mask, rounded to the nearest integer; the
planes that are not listed are those of the first clip. Chroma planes use their own plane of the mask, or the version of the
first plane that has the size of the chroma planes and belongs to the chroma location. -/
theorem C66_masked {al : Nat} (hal : AlignOk al) (F : Floats) {a b mask : PClip} (ha : ValidClip al a) (hb : ValidClip al b)
    (hm : ValidClip al mask) (hkm : mask.vi.format.colorFamily ≠ cfUndefined) {planes : List Int} {fp pre : Option Int}
    (hpre : pre.getD 0 = 0) (hw : Workable a.vi.format) (ht : a.vi.format.sampleType = stInteger) (hc : Constant a.vi)
    (hf : Fit a.vi b.vi) (hk : MaskOk a.vi mask.vi fp) (hp : PlanesOk planes) {small : List PClip}
    (hsm : Shrinks a.vi mask.vi fp planes → Smaller al a.vi small) :
    ∃ C, maskedCreate F al a.vi b.vi mask.vi planes fp pre = .ok C ∧ outInfo C (a :: b :: mask :: small) = some a.vi ∧
      ∀ n fa fb fm fs, Case al a b mask planes fp small n fa fb fm fs →
        InRange al fa → InRange al fb → InRange al fm → InRange al fs →
        Gives al C (a :: b :: mask :: small) n a.vi.format fa.width fa.height fa.props fun p x y =>
          if Wanted planes p then
            masked (maxOf a.vi.format) (smp al (maskFrame fm fs p) (maskPlane mask.vi fp p) x y) (smp al fa p x y) (smp al fb p x y)
          else smp al fa p x y := by
  obtain ⟨process, hpr, e⟩ := maskedCreate_ok F ha hb hm (pre := pre) hw hc hf hk hp
  refine ⟨_, e, rfl, ?_⟩
  intro n fa fb fm fs h ra rb rm rs
  rw [decide_eq_false (p := pre.getD 0 ≠ 0) (by omega)]
  have := masked_integer hal F ha hb hm hkm hw ht hc hf hk hpr hsm h (pre := false) (fun c => absurd c (by decide)) ra rb rm rs
  simp only [Bool.false_eq_true, if_false] at this
  exact this

/-- C66: with premultiplied clips the first clip is multiplied with the inverted mask and the second one added; the sum is
limited to the range of the samples. -/
theorem C66_premultiplied {al : Nat} (hal : AlignOk al) (F : Floats) {a b mask : PClip} (ha : ValidClip al a) (hb : ValidClip al b)
    (hm : ValidClip al mask) (hkm : mask.vi.format.colorFamily ≠ cfUndefined) {planes : List Int} {fp pre : Option Int}
    (hpre : pre.getD 0 ≠ 0) (hw : Workable a.vi.format) (ht : a.vi.format.sampleType = stInteger) (hc : Constant a.vi)
    (hf : Fit a.vi b.vi) (hk : MaskOk a.vi mask.vi fp) (hp : PlanesOk planes) {small : List PClip}
    (hsm : Shrinks a.vi mask.vi fp planes → Smaller al a.vi small) :
    ∃ C, maskedCreate F al a.vi b.vi mask.vi planes fp pre = .ok C ∧ outInfo C (a :: b :: mask :: small) = some a.vi ∧
      ∀ n fa fb fm fs, Case al a b mask planes fp small n fa fb fm fs →
        ((∃ p : Nat, (p : Int) < a.vi.format.numPlanes ∧ Wanted planes p) →
          blackOf fa.props a.vi.format = blackOf fb.props a.vi.format) →
        InRange al fa → InRange al fb → InRange al fm → InRange al fs →
        Gives al C (a :: b :: mask :: small) n a.vi.format fa.width fa.height fa.props fun p x y =>
          if Wanted planes p then
            limited (scaled (maxOf a.vi.format) (zeroOf fa.props a.vi.format p)
              (maxOf a.vi.format - smp al (maskFrame fm fs p) (maskPlane mask.vi fp p) x y) (smp al fa p x y) +
                smp al fb p x y) (maxOf a.vi.format)
          else smp al fa p x y := by
  obtain ⟨process, hpr, e⟩ := maskedCreate_ok F ha hb hm (pre := pre) hw hc hf hk hp
  refine ⟨_, e, rfl, ?_⟩
  intro n fa fb fm fs h hran ra rb rm rs
  rw [decide_eq_true hpre]
  have := masked_integer hal F ha hb hm hkm hw ht hc hf hk hpr hsm h (pre := true) (fun _ => hran) ra rb rm rs
  simp only [if_true] at this
  exact this

/-- C66: samples of type float are merged in floating point arithmetic. -/
theorem C66_masked_float {al : Nat} (hal : AlignOk al) (F : Floats) {a b mask : PClip} (ha : ValidClip al a) (hb : ValidClip al b)
    (hm : ValidClip al mask) (hkm : mask.vi.format.colorFamily ≠ cfUndefined) {planes : List Int} {fp pre : Option Int}
    (hw : Workable a.vi.format) (ht : a.vi.format.sampleType = stFloat) (hc : Constant a.vi)
    (hf : Fit a.vi b.vi) (hk : MaskOk a.vi mask.vi fp) (hp : PlanesOk planes) {small : List PClip}
    (hsm : Shrinks a.vi mask.vi fp planes → Smaller al a.vi small) :
    ∃ C, maskedCreate F al a.vi b.vi mask.vi planes fp pre = .ok C ∧ outInfo C (a :: b :: mask :: small) = some a.vi ∧
      ∀ n fa fb fm fs, Case al a b mask planes fp small n fa fb fm fs →
        Gives al C (a :: b :: mask :: small) n a.vi.format fa.width fa.height fa.props fun p x y =>
          if Wanted planes p then
            ((if pre.getD 0 = 0 then F.mask else F.maskPre) (if a.vi.format.bitsPerSample = 32 then .single else .half)
              (smp al (maskFrame fm fs p) (maskPlane mask.vi fp p) x y) (smp al fa p x y) (smp al fb p x y) %
                256 ^ bps a.vi.format : Nat)
          else smp al fa p x y := by
  obtain ⟨process, hpr, e⟩ := maskedCreate_ok F ha hb hm (pre := pre) hw hc hf hk hp
  refine ⟨_, e, rfl, ?_⟩
  intro n fa fb fm fs h
  have n1 : (stFloat : Int) ≠ stInteger := by decide
  refine masked_gives hal F ha hb hm hkm hw hc hf hk hpr hsm h.first h.second h.third h.chroma h.loc
    (fun _ c => absurd (ht.symm.trans c) n1) ?_
  intro p x y _ _ _ _
  obtain ⟨k, hkk, hkb, hko⟩ := kind_ok (struct_of ha) hw
  unfold maskOut
  rw [hkk]
  have key : ∀ k : Kind, k = .single ∨ k = .half → maskKernel F k (decide (pre.getD 0 ≠ 0)) a.vi.format.bitsPerSample.toNat
      (planeOffset a.vi.format (getLimitedRangeOffset fa.props a.vi.format) p) (smp al fa p x y) (smp al fb p x y)
      (smp al (maskFrame fm fs p) (maskPlane mask.vi fp p) x y) = (if pre.getD 0 = 0 then F.mask else F.maskPre) k
      (smp al (maskFrame fm fs p) (maskPlane mask.vi fp p) x y) (smp al fa p x y) (smp al fb p x y) := by
    intro k hk
    by_cases z : pre.getD 0 = 0
    · rw [if_pos z, decide_eq_false (by omega)]
      rcases hk with rfl | rfl <;> rfl
    · rw [if_neg z, decide_eq_true z]
      rcases hk with rfl | rfl <;> rfl
  cases k with
  | byte => exact absurd (ht.symm.trans hko.1) n1
  | word => exact absurd (ht.symm.trans hko.1) n1
  | single => rw [if_pos hko.2.1, ← key _ (Or.inl rfl)]
  | half => rw [if_neg (c := a.vi.format.bitsPerSample = 32) (by rw [hko.2.1]; decide), ← key _ (Or.inr rfl)]

/-- C66: frames with different chroma locations are not merged. -/
theorem C66_masked_location {al : Nat} (F : Floats) {a b mask : PClip} (ha : ValidClip al a) (hb : ValidClip al b)
    (hm : ValidClip al mask) (hkm : mask.vi.format.colorFamily ≠ cfUndefined) {planes : List Int} {fp pre : Option Int}
    (hc : Constant a.vi) (hk : MaskOk a.vi mask.vi fp) {small : List PClip}
    (hsm : Shrinks a.vi mask.vi fp planes → Smaller al a.vi small) {n : Nat} {fa fb fm fs : Frm} (hfa : at? a n = some fa)
    (hfb : at? b n = some fb) (hfm : at? mask n = some fm) (hfs : ChromaMask a.vi mask.vi fp planes small n fa.props fm fs)
    (hs : Subsampled a.vi.format) (hp : Wanted planes 1 ∨ Wanted planes 2) (hl : locOf fa.props ≠ locOf fb.props) {C : Created}
    (hC : maskedCreate F al a.vi b.vi mask.vi planes fp pre = .ok C) (junk : Junk) :
    ∃ m, C.frame (a :: b :: mask :: small) n junk = .err m := by
  have hpo : PlanesOk planes := Decidable.byContradiction fun c => by
    obtain ⟨m, e⟩ := C66_masked_refused F ha hb hm (pre := pre) (fp := fp) (planes := planes) (fun q => c q.2.2.2.2)
    rw [e] at hC
    exact absurd hC (by simp)
  have hall : Workable a.vi.format ∧ Fit a.vi b.vi := Classical.byContradiction fun c => by
    obtain ⟨m, e⟩ := C66_masked_refused F ha hb hm (pre := pre) (fp := fp) (planes := planes) (fun q => c ⟨q.1, q.2.2.1⟩)
    rw [e] at hC
    exact absurd hC (by simp)
  obtain ⟨process, hpr, e⟩ := maskedCreate_ok F ha hb hm (pre := pre) hall.1 hc hall.2 hk hpo
  rw [e, Res.ok.injEq] at hC
  subst hC
  obtain ⟨vm, vs, hsz, hget⟩ := masked_small F (pre := decide (pre.getD 0 ≠ 0)) ha hb hm hkm hc hk hpr hsm hfa hfm hfs
  refine ⟨"MaskedMerge: clipa and clipb have different chroma locations", frame_err ?_⟩
  show (getFrameFilter (a :: b :: mask :: small) ((maskedFilter F al a.vi (decide (UseFirst mask.vi fp)) (decide (pre.getD 0 ≠ 0)) process).reqs n) 0 n >>=
    fun s1 => getFrameFilter (a :: b :: mask :: small) ((maskedFilter F al a.vi (decide (UseFirst mask.vi fp)) (decide (pre.getD 0 ≠ 0)) process).reqs n)
      1 n >>= fun s2 => getFrameFilter (a :: b :: mask :: small)
        ((maskedFilter F al a.vi (decide (UseFirst mask.vi fp)) (decide (pre.getD 0 ≠ 0)) process).reqs n) 2 n >>= fun m =>
      getFrameFilter (a :: b :: mask :: small) ((maskedFilter F al a.vi (decide (UseFirst mask.vi fp)) (decide (pre.getD 0 ≠ 0)) process).reqs n)
        (if maskResized a.vi (decide (UseFirst mask.vi fp)) process then 3 + resolveChromaLocation s1.props else 2) n >>= fun m23 =>
      maskedFrame F al a.vi (decide (UseFirst mask.vi fp)) (decide (pre.getD 0 ≠ 0)) process s1 s2 m m23 junk) =
        .err "MaskedMerge: clipa and clipb have different chroma locations"
  have m0 : ∀ j, j < 3 → (j, n) ∈ (maskedFilter F al a.vi (decide (UseFirst mask.vi fp)) (decide (pre.getD 0 ≠ 0)) process).reqs n := by
    intro j hj
    show _ ∈ (if maskResized a.vi _ process then _ else _)
    match j, hj with
    | 0, _ => split <;> simp
    | 1, _ => split <;> simp
    | 2, _ => split <;> simp
  rw [get_ok (i := 0) rfl ha (m0 0 (by decide)) hfa, Res.bind_ok, get_ok (i := 1) rfl hb (m0 1 (by decide)) hfb, Res.bind_ok,
    get_ok (i := 2) rfl hm (m0 2 (by decide)) hfm, Res.bind_ok, hget, Res.bind_ok]
  unfold maskedFrame
  dsimp only
  rw [if_pos]
  rw [hpr 1 (by decide), hpr 2 (by decide), loc_eq, loc_eq, decide_eq_true hl, decide_eq_true (p := _ ∨ _) hs]
  rcases hp with hp | hp
  · rw [decide_eq_true hp]; rfl
  · rw [decide_eq_true hp, Bool.or_true]; rfl

/-! ## Examples -/

example : Case 32 exClip exClip exAlpha [] none (List.replicate 6 exSmall) 0 (mkFrame 32 yuv420 8 8 exPx Dict.empty)
    (mkFrame 32 yuv420 8 8 exPx Dict.empty) (mkFrame 32 gray8 8 8 exPx Dict.empty) (mkFrame 32 gray8 4 4 exPx Dict.empty) := by
  refine ⟨rfl, rfl, rfl, ?_, fun _ _ => rfl⟩
  unfold ChromaMask
  rw [if_pos (by decide)]
  refine ⟨exSmall, ?_, rfl⟩
  rw [List.getElem?_replicate, if_pos (by decide)]

example : ∃ C, maskedCreate exFloats 32 exClip.vi exClip.vi exAlpha.vi [0, 2] none (some 1) = .ok C := by
  obtain ⟨C, e, _⟩ := C66_premultiplied (Or.inl rfl) exFloats exClip_valid exClip_valid exAlpha_valid (by decide)
    (planes := [0, 2]) (fp := none) (pre := some 1) (by decide) ⟨by decide, by decide, by decide⟩ rfl
    ⟨by decide, by decide, by decide⟩ ⟨rfl, rfl, rfl⟩ ⟨rfl, rfl, rfl, Or.inl (by decide)⟩ (by decide) (fun _ => exSmaller)
  exact ⟨C, e⟩

/-- GRAYH. -/
def grayh : VFmt := ⟨cfGray, stFloat, 16, 2, 0, 0, 1⟩

theorem grayh_geo : Geo grayh 4 2 := ⟨by decide, by decide, by decide, by decide, by decide, by decide, by decide, by decide⟩

/-- C66: it is not true that the samples of the mask have the type of the samples of the clip: a mask with samples of type
float is taken for a clip with integers, its samples are used like integers. -/
theorem C66_mask_type_refuted : ∃ (F : Floats) (a mask : PClip), ValidClip 32 a ∧ ValidClip 32 mask ∧ a.vi.format.sampleType = stInteger ∧
    mask.vi.format.sampleType = stFloat ∧ ∃ C, maskedCreate F 32 a.vi a.vi mask.vi [] none none = .ok C := by
  refine ⟨exFloats, clip1 gray16 4 2 exPx Dict.empty, clip1 grayh 4 2 exPx Dict.empty, clip1_valid gray16_geo _ _,
    clip1_valid grayh_geo _ _, rfl, rfl, ?_⟩
  obtain ⟨C, e, _⟩ := C66_masked (Or.inl rfl) exFloats (clip1_valid gray16_geo exPx Dict.empty) (clip1_valid gray16_geo exPx Dict.empty)
    (clip1_valid grayh_geo exPx Dict.empty) (by decide) (planes := []) (fp := none) (pre := none) rfl ⟨by decide, by decide, by decide⟩ rfl
    ⟨by decide, by decide, by decide⟩ ⟨rfl, rfl, rfl⟩ ⟨rfl, rfl, rfl, Or.inl (by decide)⟩ (by decide) (small := [])
    (fun c => absurd c (by decide))
  exact ⟨C, e⟩

end VS.Merge

