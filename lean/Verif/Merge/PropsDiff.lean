import Verif.Merge.PropsMasked

/-! # C68: MakeDiff and MergeDiff -/

namespace VS.Merge
open VS VS.Format VS.Map VS.Map.Spec VS.Pix VS.Pix.Spec VS.Point VS.Point.Spec VS.Merge.Spec

theorem diffCreate_ok {al : Nat} (F : Floats) (make : Bool) {a b : PClip} (ha : ValidClip al a) (hb : ValidClip al b)
    {planes : List Int} (hw : Workable a.vi.format) (hc : Constant a.vi) (hf : Fit a.vi b.vi) (hp : PlanesOk planes) :
    ∃ process, (∀ p : Nat, p < 3 → process.getD p false = decide (Wanted planes p)) ∧
      diffCreate F al make a.vi b.vi planes = .ok (.filter (diffFilter F al make a.vi process)) := by
  obtain ⟨process, e, hpr⟩ := planes_ok (if make then "MakeDiff" else "MergeDiff") hp
  refine ⟨process, hpr, ?_⟩
  unfold diffCreate
  dsimp only
  rw [(workable_iff _).2 hw, (constant_iff _).2 hc, (fit_iff ha hb hc).2 hf, if_neg (by decide), if_neg (by decide), e, Res.bind_ok]
  exact create_ok ha.info

/-- C68: other clips and planes are refused. -/
theorem C68_diff_refused {al : Nat} (F : Floats) (make : Bool) {a b : PClip} (ha : ValidClip al a) (hb : ValidClip al b)
    {planes : List Int} (h : ¬ (Workable a.vi.format ∧ Constant a.vi ∧ Fit a.vi b.vi ∧ PlanesOk planes)) :
    ∃ m, diffCreate F al make a.vi b.vi planes = .err m := by
  unfold diffCreate
  dsimp only
  cases e3 : is8to16orFloat a.vi.format with
  | false => exact ⟨_, rfl⟩
  | true =>
    rw [if_neg (by decide)]
    cases e4 : isConstantVideoFormat a.vi with
    | false => exact ⟨_, rfl⟩
    | true =>
      cases e5 : isSameVideoInfo a.vi b.vi with
      | false => exact ⟨_, rfl⟩
      | true =>
        have hc := (constant_iff _).1 e4
        rw [if_neg (by decide)]
        obtain ⟨m, e⟩ := planes_bad (if make then "MakeDiff" else "MergeDiff") (planes := planes)
          (fun c => h ⟨(workable_iff _).1 e3, hc, (fit_iff ha hb hc).1 e5, c⟩)
        rw [e]
        exact ⟨m, rfl⟩

theorem diff_gives {al : Nat} (hal : AlignOk al) (F : Floats) (make : Bool) {a b : PClip} (ha : ValidClip al a) (hb : ValidClip al b)
    {planes : List Int} (hw : Workable a.vi.format) (hc : Constant a.vi) (hf : Fit a.vi b.vi) {process : List Bool}
    (hpr : ∀ p : Nat, p < 3 → process.getD p false = decide (Wanted planes p)) {n : Nat} {fa fb : Frm} (hfa : at? a n = some fa)
    (hfb : at? b n = some fb) {S : Nat → Nat → Nat → Int}
    (hS : ∀ p x y : Nat, (diffOut F make a.vi.format (smp al fa p x y) (smp al fb p x y) : Int) = S p x y) :
    Gives al (.filter (diffFilter F al make a.vi process)) [a, b] n a.vi.format fa.width fa.height fa.props fun p x y =>
      if Wanted planes p then S p x y else smp al fa p x y := by
  obtain ⟨va, a1, a2, a3⟩ := const_frame ha hc (at_mem hfa)
  obtain ⟨b1, b2, b3⟩ := fit_frame ha hb hc hf (at_mem hfa) (at_mem hfb)
  have vb := hb.frames fb (at_mem hfb)
  have hnp := (fmtOk (struct_of ha) hc.2.2).planes
  refine gives_of rfl a2.symm a3.symm ?_
  intro junk
  obtain ⟨g, e, v, g1, g2, g3, g4, g5⟩ := diffFrame_ok (F := F) (make := make) (align_pos hal) va vb a1 a2 a3 b1 b2 b3 hw process junk
  refine ⟨g, ?_, v, g1, g2, g3, g4, ?_⟩
  · show (getFrameFilter [a, b] [(0, n), (1, n)] 0 n >>= fun s1 => getFrameFilter [a, b] [(0, n), (1, n)] 1 n >>= fun s2 =>
      diffFrame F al make a.vi process s1 s2 junk) = _
    rw [get_ok (i := 0) rfl ha (by simp) hfa, Res.bind_ok, get_ok (i := 1) rfl hb (by simp) hfb, Res.bind_ok, e]
  · intro p x y hp hx hy
    rw [g5 p x y hp hx hy, hpr p (by omega)]
    by_cases w : Wanted planes p
    · rw [decide_eq_true w, if_pos rfl, if_pos w]
      exact hS p x y
    · rw [decide_eq_false w, if_neg w]; rfl

theorem clamp_mod {x : Int} {mx B : Nat} (h : mx < B) : ((clamp x mx % B : Nat) : Int) = limited x mx := by
  have e := clamp_eq (x := x) (mx := mx) (by omega)
  have : (clamp x mx : Int) ≤ mx := by rw [e]; exact limited_le (by omega)
  rw [Nat.mod_eq_of_lt (by omega), e]

theorem max_eq (f : VFmt) : maxOf f = ((2 ^ f.bitsPerSample.toNat - 1 : Nat) : Int) := by
  unfold maxOf
  have := Nat.pow_pos (n := f.bitsPerSample.toNat) (show 0 < 2 by decide)
  rw [Int.ofNat_sub (by omega)]
  push_cast
  rfl

theorem middle_eq (f : VFmt) (h : 0 ≤ f.bitsPerSample) : middleOf f = ((2 ^ (f.bitsPerSample.toNat - 1) : Nat) : Int) := by
  unfold middleOf
  rw [show (f.bitsPerSample - 1).toNat = f.bitsPerSample.toNat - 1 by omega]
  push_cast
  rfl

theorem diff_px (F : Floats) (make : Bool) {f : VFmt} (h : isValidVideoStruct f = true) (hw : Workable f)
    (ht : f.sampleType = stInteger) (v1 v2 : Nat) : (diffOut F make f v1 v2 : Int) =
      limited (if make then (v1 : Int) - v2 + middleOf f else (v1 : Int) + v2 - middleOf f) (maxOf f) := by
  obtain ⟨k, hk, hkb, hko⟩ := kind_ok h hw
  have n1 : (stFloat : Int) ≠ stInteger := by decide
  have hb : 0 ≤ f.bitsPerSample := by
    cases k with
    | byte => have := hko.2.1; omega
    | word => have := hko.2.1; omega
    | single => have := hko.2.1; omega
    | half => have := hko.2.1; omega
  rw [max_eq, middle_eq f hb]
  unfold diffOut
  rw [hk]
  dsimp only
  cases k with
  | byte =>
    obtain ⟨_, b8, b1⟩ := hko
    rw [b8, b1]
    unfold diffKernel
    cases make with
    | true => exact clamp_mod (by decide)
    | false => exact clamp_mod (by decide)
  | word =>
    obtain ⟨_, b9, b16, b2⟩ := hko
    have p3 := (pow_depth (d := f.bitsPerSample.toNat) (by omega) (by omega)).2.2
    have p4 := (pow_depth (d := f.bitsPerSample.toNat) (by omega) (by omega)).1
    have p5 := (pow_depth (d := f.bitsPerSample.toNat) (by omega) (by omega)).2.1
    rw [b2]
    unfold diffKernel
    dsimp only
    have hlt : 2 ^ f.bitsPerSample.toNat - 1 < 256 ^ 2 := by
      show _ < 65536
      omega
    cases make with
    | true => rw [if_pos rfl, if_pos rfl]; exact clamp_mod hlt
    | false => rw [if_neg (by decide), if_neg (by decide)]; exact clamp_mod hlt
  | single => exact absurd (hko.1.symm.trans ht) n1
  | half => exact absurd (hko.1.symm.trans ht) n1

/-- C68: MakeDiff gives the difference of the samples, shifted by the middle of the range and limited to it. -/
theorem C68_makeDiff {al : Nat} (hal : AlignOk al) (F : Floats) {a b : PClip} (ha : ValidClip al a) (hb : ValidClip al b)
    {planes : List Int} (hw : Workable a.vi.format) (ht : a.vi.format.sampleType = stInteger) (hc : Constant a.vi)
    (hf : Fit a.vi b.vi) (hp : PlanesOk planes) :
    ∃ C, diffCreate F al true a.vi b.vi planes = .ok C ∧ outInfo C [a, b] = some a.vi ∧
      ∀ n fa fb, at? a n = some fa → at? b n = some fb →
        Gives al C [a, b] n a.vi.format fa.width fa.height fa.props fun p x y =>
          if Wanted planes p then
            limited ((smp al fa p x y : Int) - smp al fb p x y + middleOf a.vi.format) (maxOf a.vi.format)
          else smp al fa p x y := by
  obtain ⟨process, hpr, e⟩ := diffCreate_ok F true ha hb hw hc hf hp
  refine ⟨_, e, rfl, ?_⟩
  intro n fa fb hfa hfb
  exact diff_gives hal F true ha hb hw hc hf hpr hfa hfb (fun p x y => diff_px F true (struct_of ha) hw ht _ _)

/-- C68: MergeDiff adds a difference again. -/
theorem C68_mergeDiff {al : Nat} (hal : AlignOk al) (F : Floats) {a b : PClip} (ha : ValidClip al a) (hb : ValidClip al b)
    {planes : List Int} (hw : Workable a.vi.format) (ht : a.vi.format.sampleType = stInteger) (hc : Constant a.vi)
    (hf : Fit a.vi b.vi) (hp : PlanesOk planes) :
    ∃ C, diffCreate F al false a.vi b.vi planes = .ok C ∧ outInfo C [a, b] = some a.vi ∧
      ∀ n fa fb, at? a n = some fa → at? b n = some fb →
        Gives al C [a, b] n a.vi.format fa.width fa.height fa.props fun p x y =>
          if Wanted planes p then
            limited ((smp al fa p x y : Int) + smp al fb p x y - middleOf a.vi.format) (maxOf a.vi.format)
          else smp al fa p x y := by
  obtain ⟨process, hpr, e⟩ := diffCreate_ok F false ha hb hw hc hf hp
  refine ⟨_, e, rfl, ?_⟩
  intro n fa fb hfa hfb
  exact diff_gives hal F false ha hb hw hc hf hpr hfa hfb (fun p x y => diff_px F false (struct_of ha) hw ht _ _)

/-- C68: samples of type float are subtracted and added in floating point arithmetic. -/
theorem C68_diff_float {al : Nat} (hal : AlignOk al) (F : Floats) (make : Bool) {a b : PClip} (ha : ValidClip al a) (hb : ValidClip al b)
    {planes : List Int} (hw : Workable a.vi.format) (ht : a.vi.format.sampleType = stFloat) (hc : Constant a.vi)
    (hf : Fit a.vi b.vi) (hp : PlanesOk planes) :
    ∃ C, diffCreate F al make a.vi b.vi planes = .ok C ∧ outInfo C [a, b] = some a.vi ∧
      ∀ n fa fb, at? a n = some fa → at? b n = some fb →
        Gives al C [a, b] n a.vi.format fa.width fa.height fa.props fun p x y =>
          if Wanted planes p then
            ((if make then F.makeDiff else F.mergeDiff) (if a.vi.format.bitsPerSample = 32 then .single else .half)
              (smp al fa p x y) (smp al fb p x y) % 256 ^ bps a.vi.format : Nat)
          else smp al fa p x y := by
  obtain ⟨process, hpr, e⟩ := diffCreate_ok F make ha hb hw hc hf hp
  refine ⟨_, e, rfl, ?_⟩
  intro n fa fb hfa hfb
  refine diff_gives hal F make ha hb hw hc hf hpr hfa hfb ?_
  intro p x y
  obtain ⟨k, hkk, hkb, hko⟩ := kind_ok (struct_of ha) hw
  have n1 : (stFloat : Int) ≠ stInteger := by decide
  unfold diffOut
  rw [hkk]
  cases k with
  | byte => exact absurd (ht.symm.trans hko.1) n1
  | word => exact absurd (ht.symm.trans hko.1) n1
  | single => rw [if_pos (c := a.vi.format.bitsPerSample = 32) hko.2.1]; cases make <;> rfl
  | half => rw [if_neg (c := a.vi.format.bitsPerSample = 32) (by rw [hko.2.1]; decide)]; cases make <;> rfl

theorem limited_id {x mx : Int} (h : 0 ≤ x) (h' : x ≤ mx) : limited x mx = x := by
  unfold limited
  rw [if_neg (by omega), if_neg (by omega)]

/-- C68: a difference that was not limited can be added to the second clip: the result is the first clip. `d` is a clip
with the frames MakeDiff gives. -/
theorem C68_round_trip {al : Nat} (hal : AlignOk al) (F : Floats) {a b d : PClip} (ha : ValidClip al a) (hb : ValidClip al b)
    (hd : ValidClip al d) {planes : List Int} (hw : Workable a.vi.format) (ht : a.vi.format.sampleType = stInteger)
    (hc : Constant a.vi) (hf : Fit a.vi b.vi) (hfd : Fit a.vi d.vi) (hp : PlanesOk planes) :
    ∃ C D, diffCreate F al true a.vi b.vi planes = .ok C ∧ diffCreate F al false b.vi d.vi planes = .ok D ∧
      ∀ n fa fb fd junk, at? a n = some fa → at? b n = some fb → at? d n = some fd → C.frame [a, b] n junk = .ok fd →
        InRange al fa →
        (∀ p x y : Nat, (p : Int) < a.vi.format.numPlanes → x < fa.w p → y < fa.h p → Wanted planes p →
          -middleOf a.vi.format ≤ (smp al fa p x y : Int) - smp al fb p x y ∧
          (smp al fa p x y : Int) - smp al fb p x y ≤ maxOf a.vi.format - middleOf a.vi.format) →
        ∀ junk', ∃ g, D.frame [b, d] n junk' = .ok g ∧ ∀ p x y : Nat, (p : Int) < a.vi.format.numPlanes → x < fa.w p → y < fa.h p →
          Wanted planes p → smp al g p x y = smp al fa p x y := by
  have hfb : Fit b.vi d.vi := ⟨hf.1.symm.trans hfd.1, hf.2.1.symm.trans hfd.2.1, hf.2.2.symm.trans hfd.2.2⟩
  have hwb : Workable b.vi.format := hf.2.2 ▸ hw
  have hcb : Constant b.vi := by unfold Constant at *; rw [← hf.1, ← hf.2.1, ← hf.2.2]; exact hc
  obtain ⟨C, e1, _, h1⟩ := C68_makeDiff hal F ha hb hw ht hc hf hp
  obtain ⟨D, e2, _, h2⟩ := C68_mergeDiff hal F hb hd hwb (hf.2.2 ▸ ht) hcb hfb hp
  refine ⟨C, D, e1, e2, ?_⟩
  intro n fa fb fd junk hfa hfb' hfd' hfr hr hdif junk'
  obtain ⟨g1, q, _, q1, q2, q3, _, q5⟩ := h1 n fa fb hfa hfb' junk
  rw [q, Res.ok.injEq] at hfr
  subst hfr
  obtain ⟨g, r, _, r1, r2, r3, _, r5⟩ := h2 n fb g1 hfb' hfd' junk'
  refine ⟨g, r, ?_⟩
  intro p x y hpp hx hy hwp
  obtain ⟨_, a1, a2, a3⟩ := const_frame ha hc (at_mem hfa)
  obtain ⟨b1, b2, b3⟩ := fit_frame ha hb hc hf (at_mem hfa) (at_mem hfb')
  have eg : g.fmt = fa.fmt := by rw [r1, a1, ← hf.2.2]
  have eg1 : g1.fmt = fa.fmt := by rw [q1, a1]
  have s1 := q5 p x y hpp (by rw [w_eq eg1 q2]; exact hx) (by rw [h_eq eg1 q3]; exact hy)
  have s2 := r5 p x y (by rw [← hf.2.2]; exact hpp) (by rw [w_eq eg (by omega)]; exact hx) (by rw [h_eq eg (by omega)]; exact hy)
  dsimp only at s1 s2
  rw [if_pos hwp] at s1 s2
  obtain ⟨t1, t2⟩ := hdif p x y hpp hx hy hwp
  have hl := hr p x y (a1 ▸ hpp) hx hy
  rw [a1] at hl
  have i1 := limited_id (x := (smp al fa p x y : Int) - smp al fb p x y + middleOf a.vi.format) (mx := maxOf a.vi.format)
    (by omega) (by omega)
  rw [i1] at s1
  rw [← hf.2.2, limited_id (by omega) (by rw [max_eq] at *; omega)] at s2
  omega

/-! ## Examples -/

example : ∃ C, diffCreate exFloats 32 true exClip.vi exClip.vi [1] = .ok C := by
  obtain ⟨C, e, _⟩ := C68_makeDiff (Or.inl rfl) exFloats exClip_valid exClip_valid (planes := [1])
    ⟨by decide, by decide, by decide⟩ rfl ⟨by decide, by decide, by decide⟩ ⟨rfl, rfl, rfl⟩ (by decide)
  exact ⟨C, e⟩

/-- The differences of `exClip` with itself are not limited. -/
example : ∃ C D, diffCreate exFloats 32 true exClip.vi exClip.vi [] = .ok C ∧ diffCreate exFloats 32 false exClip.vi exClip.vi [] = .ok D := by
  obtain ⟨C, D, e1, e2, _⟩ := C68_round_trip (Or.inl rfl) exFloats exClip_valid exClip_valid exClip_valid (planes := [])
    ⟨by decide, by decide, by decide⟩ rfl ⟨by decide, by decide, by decide⟩ ⟨rfl, rfl, rfl⟩ ⟨rfl, rfl, rfl⟩ (by decide)
  exact ⟨C, D, e1, e2⟩

example : ∃ m, diffCreate exFloats 32 true exClip.vi exClip.vi [0, 0] = .err m :=
  C68_diff_refused exFloats true exClip_valid exClip_valid (fun h => absurd h.2.2.2 (by decide))

/-- A difference that is limited is lost: 255 - 0 becomes 127. -/
example : limited (0 + limited (255 - 0 + 128) 255 - 128) 255 = 127 := by decide

end VS.Merge
