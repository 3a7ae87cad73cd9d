import Verif.Pix.Example

/-! # C55 and C56: Crop and AddBorders -/

namespace VS.Pix
open VS VS.Format VS.Map VS.Map.Spec VS.Pix.Spec

/-! ## C55 -/

theorem cropVerify_imp {x y w h W H : Int} {fi : VFmt} (e : cropVerify x y w h W H fi = .ok none) :
    0 ≤ x ∧ 0 ≤ y ∧ 0 < w ∧ 0 < h ∧ w % 2 ^ fi.subSamplingW.toNat = 0 ∧ h % 2 ^ fi.subSamplingH.toNat = 0 ∧
      x % 2 ^ fi.subSamplingW.toNat = 0 ∧ y % 2 ^ fi.subSamplingH.toNat = 0 ∧
      (0 < W → 0 < H → x + w ≤ W ∧ y + h ≤ H) := by
  unfold cropVerify at e
  obtain ⟨b, eb, e⟩ := bind_eq_ok e
  rw [Res.ok.injEq, lastMsg_none] at e
  simp only [List.mem_cons, List.not_mem_nil, or_false, forall_eq_or_imp, forall_eq, decide_eq_false_iff_not, ne_eq,
    Decidable.not_not, not_or, Int.not_lt, Int.not_le] at e
  refine ⟨e.1.2, e.1.1, e.2.1.1, e.2.1.2, e.2.2.2.1, e.2.2.2.2.1, e.2.2.2.2.2.1, e.2.2.2.2.2.2, ?_⟩
  intro hW hH
  have hb := e.2.2.1
  subst hb
  unfold beyond at eb
  rw [if_pos ⟨hH, hW⟩] at eb
  obtain ⟨a, ea, eb⟩ := bind_eq_ok eb
  split at eb
  · exact absurd eb (by simp)
  · obtain ⟨a2, ea2, eb⟩ := bind_eq_ok eb
    unfold i32 at ea ea2
    split at ea
    · split at ea2
      · rw [Res.ok.injEq] at ea ea2
        subst ea ea2
        rw [Res.ok.injEq, decide_eq_false_iff_not] at eb
        omega
      · exact absurd ea2 (by simp)
    · exact absurd ea (by simp)

/-- What a frame of a crop filter is if the area fits into the frame. -/
theorem cropFilter_frame {al : Nat} (ha : AlignOk al) {c : PClip} (hv : ValidClip al c) {n : Nat} {f : Frm} (hf : at? c n = some f)
    {x y w h : Nat} (hi : Inside f.fmt f.width f.height x y w h) (junk : Junk) :
    ∃ g, (Created.filter (cropFilter al c.vi x y w h)).frame [c] n junk = .ok g ∧ Valid al g ∧ g.fmt = f.fmt ∧ g.width = w ∧
      g.height = h ∧ g.props = swapFields (decide (y % 2 = 1)) f.props ∧
      ∀ p : Nat, (p : Int) < f.fmt.numPlanes → (img al g p).Same (crop (x / 2 ^ ssw f.fmt p) (y / 2 ^ ssh f.fmt p)
        (w / 2 ^ ssw f.fmt p) (h / 2 ^ ssh f.fmt p) (img al f p)) := by
  have v := hv.frames f (at_mem hf)
  obtain ⟨g, e, h1, h2, h3, h4, h5, h6⟩ := cropFrame_ok (align_pos ha) v hi junk
  refine ⟨g, ?_, h1, h2, h3, h4, h5, h6⟩
  exact one_frame hv hf (F := fun _ s junk => cropFrame al x y w h s junk) e
    (fun hk => h2.trans (hv.fmt f (at_mem hf) hk)) (fun _ => ⟨by rw [h3], by rw [h4]⟩)

/-- C55. A clip made by `Crop` has, in each frame, exactly the pixels of the input frame that are left when the given
numbers of columns and rows are cut off at the four sides, in all planes (in subsampled planes the numbers are divided
accordingly). -/
theorem C55_crop {al : Nat} (ha : AlignOk al) {c : PClip} (hv : ValidClip al c) {l r t b : Int} {C : Created}
    (hC : cropRelCreate al c.vi l r t b = .ok C) {n : Nat} {f : Frm} (hf : at? c n = some f) (junk : Junk) :
    0 ≤ l ∧ 0 ≤ r ∧ 0 ≤ t ∧ 0 ≤ b ∧
    ∃ g, C.frame [c] n junk = .ok g ∧ Valid al g ∧ g.fmt = f.fmt ∧ (g.width : Int) = f.width - l - r ∧
      (g.height : Int) = f.height - t - b ∧
      ∀ p : Nat, (p : Int) < f.fmt.numPlanes → (img al g p).Same (crop (l.toNat / 2 ^ ssw f.fmt p)
        (t.toNat / 2 ^ ssh f.fmt p) (g.w p) (g.h p) (img al f p)) := by
  unfold cropRelCreate at hC
  split at hC
  · exact absurd hC (by simp)
  rename_i hcon
  have hcon' : isConstantVideoFormat c.vi = true := by simpa using hcon
  unfold isConstantVideoFormat at hcon'
  obtain ⟨k1, k2, k3⟩ := of_decide_eq_true hcon'
  have hm := at_mem hf
  have v := hv.frames f hm
  obtain ⟨s1, s2⟩ := hv.size f hm (by omega)
  have s3 := hv.fmt f hm k3
  obtain ⟨H, eH, hC⟩ := bind_eq_ok hC
  obtain ⟨W, eW, hC⟩ := bind_eq_ok hC
  have rem : ∀ s a b x : Int, remaining s a b = .ok x → x = s - a - b := by
    intro s a b x hx
    unfold remaining i32 at hx
    obtain ⟨y, hy, hx⟩ := bind_eq_ok hx
    split at hy
    · split at hx
      · rw [Res.ok.injEq] at hx hy; omega
      · exact absurd hx (by simp)
    · exact absurd hy (by simp)
  have eH' := rem _ _ _ _ eH
  have eW' := rem _ _ _ _ eW
  split at hC
  · rename_i h0
    rw [Res.ok.injEq] at hC
    subst hC
    obtain ⟨rfl, rfl, h3, h4⟩ := h0
    have hr : r = 0 := by omega
    have hb : b = 0 := by omega
    subst hr hb
    refine ⟨by omega, by omega, by omega, by omega, f, pass_frame rfl hv hf junk, v, rfl, by omega, by omega, ?_⟩
    intro p hp
    refine ⟨rfl, rfl, fun x y _ _ => ?_⟩
    show _ = (img al f p).px (x + Int.toNat 0 / _) (y + Int.toNat 0 / _)
    simp
  · obtain ⟨o, eo, hC⟩ := bind_eq_ok hC
    cases o with
    | some m => exact absurd hC (by simp)
    | none =>
      obtain ⟨q1, q2, q3, q4, q5, q6, q7, q8, q9⟩ := cropVerify_imp eo
      obtain ⟨q9, q10⟩ := q9 k2 k1
      obtain ⟨rfl, _⟩ := create_eq_ok hC
      obtain ⟨x, rfl⟩ := Int.eq_ofNat_of_zero_le q1
      obtain ⟨y, rfl⟩ := Int.eq_ofNat_of_zero_le q2
      obtain ⟨w, rfl⟩ := Int.eq_ofNat_of_zero_le (Int.le_of_lt q3)
      obtain ⟨h, rfl⟩ := Int.eq_ofNat_of_zero_le (Int.le_of_lt q4)
      rw [← s3, mod_dvd] at q5 q6 q7 q8
      have hi : Inside f.fmt f.width f.height x y w h := ⟨by omega, by omega, by omega, q7, q8, q5, q6⟩
      obtain ⟨g, e, h1, h2, h3, h4, h5, h6⟩ := cropFilter_frame ha hv hf hi junk
      refine ⟨by omega, by omega, by omega, by omega, g, e, h1, h2, by omega, by omega, ?_⟩
      intro p hp
      have := h6 p hp
      simp only [Int.toNat_natCast]
      have ew : g.w p = w / 2 ^ ssw f.fmt p := by unfold Frm.w; rw [h2, h3]
      have eh : g.h p = h / 2 ^ ssh f.fmt p := by unfold Frm.h; rw [h2, h4]
      rw [ew, eh]
      exact this

/-- C55. `Crop` accepts what leaves something to see and fits to the subsampling, and reports an error for everything
else. (For arguments and sizes beyond 2^29 and 2^30 see `C55_crop_overflow_refuted`.) -/
theorem C55_crop_accepts {al : Nat} {c : PClip} (hv : ValidClip al c) {l r t b : Int}
    (hcon : 0 < c.vi.width ∧ 0 < c.vi.height ∧ c.vi.format.colorFamily ≠ cfUndefined)
    (hl : -2 ^ 29 ≤ l ∧ l ≤ 2 ^ 29) (hr : -2 ^ 29 ≤ r ∧ r ≤ 2 ^ 29) (ht : -2 ^ 29 ≤ t ∧ t ≤ 2 ^ 29)
    (hb : -2 ^ 29 ≤ b ∧ b ≤ 2 ^ 29) (hs : c.vi.width < 2 ^ 30 ∧ c.vi.height < 2 ^ 30) :
    ((0 ≤ l ∧ 0 ≤ r ∧ l + r < c.vi.width ∧ 0 ≤ t ∧ 0 ≤ b ∧ t + b < c.vi.height ∧
        BorderOk c.vi.format l.toNat r.toNat t.toNat b.toNat) →
      ∃ C, cropRelCreate al c.vi l r t b = .ok C) ∧
    (¬ (0 ≤ l ∧ 0 ≤ r ∧ l + r < c.vi.width ∧ 0 ≤ t ∧ 0 ≤ b ∧ t + b < c.vi.height ∧
        BorderOk c.vi.format l.toNat r.toNat t.toNat b.toNat) →
      ∃ m, cropRelCreate al c.vi l r t b = .err m) := by
  obtain ⟨f, hf, hm⟩ := at_some hv 0
  have v := hv.frames f hm
  obtain ⟨s1, s2⟩ := hv.size f hm (by omega)
  have s3 := hv.fmt f hm hcon.2.2
  have m1 := v.modW
  have m2 := v.modH
  rw [s3] at m1 m2
  have ec : isConstantVideoFormat c.vi = true := by
    unfold isConstantVideoFormat
    exact decide_eq_true ⟨hcon.2.1, hcon.1, hcon.2.2⟩
  have e1 : remaining c.vi.height t b = .ok (c.vi.height - t - b) := by
    unfold remaining
    rw [i32_ok (by unfold InI32 INT_MIN INT_MAX; omega), Res.bind_ok, i32_ok (by unfold InI32 INT_MIN INT_MAX; omega)]
  have e2 : remaining c.vi.width l r = .ok (c.vi.width - l - r) := by
    unfold remaining
    rw [i32_ok (by unfold InI32 INT_MIN INT_MAX; omega), Res.bind_ok, i32_ok (by unfold InI32 INT_MIN INT_MAX; omega)]
  have i1 : InI32 (c.vi.height - t - b + t) := by unfold InI32 INT_MIN INT_MAX; omega
  have i2 : InI32 (c.vi.width - l - r + l) := by unfold InI32 INT_MIN INT_MAX; omega
  have sub : ∀ {k W a d : Nat}, 2 ^ k ∣ W → 2 ^ k ∣ a → a + d ≤ W → (2 ^ k ∣ W - a - d ↔ 2 ^ k ∣ d) := by
    intro k W a d hW ha hle
    have h1 : 2 ^ k ∣ W - a := Nat.dvd_sub hW ha
    constructor
    · intro h
      have := Nat.dvd_sub h1 h
      rwa [show W - a - (W - a - d) = d by omega] at this
    · intro h
      exact Nat.dvd_sub h1 h
  have key : (0 ≤ l ∧ 0 ≤ t ∧ Inside c.vi.format c.vi.width.toNat c.vi.height.toNat l.toNat t.toNat (c.vi.width - l - r).toNat
      (c.vi.height - t - b).toNat) ↔ (0 ≤ l ∧ 0 ≤ r ∧ l + r < c.vi.width ∧ 0 ≤ t ∧ 0 ≤ b ∧ t + b < c.vi.height ∧
        BorderOk c.vi.format l.toNat r.toNat t.toNat b.toNat) := by
    constructor
    · rintro ⟨a1, a2, a3⟩
      have p1 := a3.pos
      have p2 := a3.inW
      have p3 := a3.inH
      have mW := a3.modW
      have mH := a3.modH
      rw [show (c.vi.width - l - r).toNat = f.width - l.toNat - r.toNat by omega, sub m1 a3.modX (by omega)] at mW
      rw [show (c.vi.height - t - b).toNat = f.height - t.toNat - b.toNat by omega, sub m2 a3.modY (by omega)] at mH
      exact ⟨by omega, by omega, by omega, by omega, by omega, by omega, a3.modX, mW, a3.modY, mH⟩
    · rintro ⟨a1, a2, a3, a4, a5, a6, a7⟩
      refine ⟨a1, a4, by omega, by omega, by omega, a7.modL, a7.modT, ?_, ?_⟩
      · rw [show (c.vi.width - l - r).toNat = f.width - l.toNat - r.toNat by omega, sub m1 a7.modL (by omega)]
        exact a7.modR
      · rw [show (c.vi.height - t - b).toNat = f.height - t.toNat - b.toNat by omega, sub m2 a7.modT (by omega)]
        exact a7.modB
  have unf : cropRelCreate al c.vi l r t b =
      if l = 0 ∧ t = 0 ∧ c.vi.width - l - r = c.vi.width ∧ c.vi.height - t - b = c.vi.height then .ok (.pass 0)
      else cropVerify l t (c.vi.width - l - r) (c.vi.height - t - b) c.vi.width c.vi.height c.vi.format >>= fun o =>
        match o with
        | some m => .err m
        | none => create (cropFilter al c.vi l t (c.vi.width - l - r) (c.vi.height - t - b)) := by
    unfold cropRelCreate
    rw [ec, e1, Res.bind_ok, e2, Res.bind_ok]
    rfl
  rw [unf, ← key]
  constructor
  · intro h
    split
    · exact ⟨_, rfl⟩
    · rw [(cropVerify_none i1 i2 hcon.1 hcon.2.1).2 h, Res.bind_ok]
      have := h.2.2.pos
      exact ⟨_, create_ok (info_resize hv.info (by omega) (by omega))⟩
  · intro h
    rw [if_neg]
    · obtain ⟨m, em⟩ := cropVerify_some i1 i2 hcon.1 hcon.2.1 h
      exact ⟨m, by rw [em, Res.bind_ok]⟩
    · rintro ⟨rfl, rfl, h3, h4⟩
      have hr0 : r = 0 := by omega
      have hb0 : b = 0 := by omega
      subst hr0 hb0
      refine h (key.2 ⟨by omega, by omega, by omega, by omega, by omega, by omega, ?_⟩)
      exact ⟨Nat.dvd_zero _, Nat.dvd_zero _, Nat.dvd_zero _, Nat.dvd_zero _⟩

/-- An odd number of columns of a subsampled clip is refused, an even one is not. -/
example : (∃ m, cropRelCreate 32 exClip.vi 1 0 0 0 = .err m) ∧ ∃ C, cropRelCreate 32 exClip.vi 2 2 2 2 = .ok C :=
  ⟨(C55_crop_accepts exClip_valid (by decide) (by decide) (by decide) (by decide) (by decide) (by decide)).2
    (fun h => absurd h.2.2.2.2.2.2.modL (by decide)),
    (C55_crop_accepts exClip_valid (by decide) (by decide) (by decide) (by decide) (by decide) (by decide)).1
      ⟨by decide, by decide, by decide, by decide, by decide, by decide, by decide, by decide, by decide, by decide⟩⟩

/-- `C55_crop` is about something: two columns at the left, four rows at the bottom. -/
example : ∃ C, cropRelCreate 32 exClip.vi 2 0 0 4 = .ok C ∧ at? exClip 0 ≠ none := by
  obtain ⟨C, hC⟩ := (C55_crop_accepts (al := 32) (l := 2) (r := 0) (t := 0) (b := 4) exClip_valid (by decide) (by decide) (by decide)
    (by decide) (by decide) (by decide)).1
      ⟨by decide, by decide, by decide, by decide, by decide, by decide, by decide, by decide, by decide, by decide⟩
  exact ⟨C, hC, by rw [exClip_at]; simp⟩

/-- C55. Clips whose frames differ in format or size are refused by `Crop`. -/
theorem C55_crop_variable {al : Nat} {vi : VInfo} {l r t b : Int}
    (h : ¬ (0 < vi.width ∧ 0 < vi.height ∧ vi.format.colorFamily ≠ cfUndefined)) : ∃ m, cropRelCreate al vi l r t b = .err m := by
  refine ⟨_, if_pos ?_⟩
  unfold isConstantVideoFormat
  rw [decide_eq_false (fun hh => h ⟨hh.2.1, hh.1, hh.2.2⟩)]
  rfl

example : ¬ ((0 : Int) < (⟨yuv420, 25, 1, 0, 0, 2⟩ : VInfo).width ∧ (0 : Int) < (⟨yuv420, 25, 1, 0, 0, 2⟩ : VInfo).height ∧
    yuv420.colorFamily ≠ cfUndefined) := by decide

/-- C55. The field order of a frame that says it is interlaced is exchanged if an odd number of rows is cut off at the
top. Nothing else in the properties changes. -/
theorem C55_crop_props {al : Nat} (ha : AlignOk al) {c : PClip} (hv : ValidClip al c) {n : Nat} {f : Frm} (hf : at? c n = some f)
    {x y w h : Nat} (hi : Inside f.fmt f.width f.height x y w h) (junk : Junk) :
    ∃ g, (Created.filter (cropFilter al c.vi x y w h)).frame [c] n junk = .ok g ∧
      (∀ k, k ≠ "_FieldBased" → g.props.get k = f.props.get k) ∧
      (propInt f.props "_FieldBased" = some 1 → propInt g.props "_FieldBased" = some (if y % 2 = 1 then 2 else 1)) ∧
      (propInt f.props "_FieldBased" = some 2 → propInt g.props "_FieldBased" = some (if y % 2 = 1 then 1 else 2)) ∧
      (propInt f.props "_FieldBased" ≠ some 1 → propInt f.props "_FieldBased" ≠ some 2 → g.props = f.props) := by
  obtain ⟨g, e, _, _, _, _, h5, _⟩ := cropFilter_frame ha hv hf hi junk
  refine ⟨g, e, ?_⟩
  rw [h5]
  have sp : ∀ (d : Dict) i, propInt (setInt d "_FieldBased" i) "_FieldBased" = some i := by
    intro d i; unfold propInt setInt Dict.put Dict.get; simp
  have so : ∀ (d : Dict) i k, k ≠ "_FieldBased" → (setInt d "_FieldBased" i).get k = d.get k := by
    intro d i k hk; unfold setInt Dict.put Dict.get; simp [hk]
  unfold swapFields
  by_cases hy : y % 2 = 1
  · simp only [hy, decide_true, if_true]
    refine ⟨?_, ?_, ?_, ?_⟩
    · intro k hk
      split
      · exact so _ _ _ hk
      · rfl
    · intro h; rw [h]; simp [sp]
    · intro h; rw [h]; simp [sp]
    · intro h1 h2
      rw [if_neg]
      rcases e : propInt f.props "_FieldBased" with _ | i
      · simp
      · rw [e] at h1 h2
        simp only [Option.getD_some]
        rintro (rfl | rfl)
        · exact h1 rfl
        · exact h2 rfl
  · simp [hy]

/-- C55. `CropAbs` delivers the area with the given corner and size, also from clips whose frames have different sizes:
frames in which the area does not fit give an error instead. -/
theorem C55_crop_abs {al : Nat} (ha : AlignOk al) {c : PClip} (hv : ValidClip al c) {left x top y : Option Int} {w h : Int}
    {C : Created} (hC : cropAbsCreate al c.vi left x top y w h = .ok C) {n : Nat} {f : Frm} (hf : at? c n = some f)
    (hx : argOr left x ≤ 2 ^ 30) (hy : argOr top y ≤ 2 ^ 30) (hw : w ≤ 2 ^ 30 - 1) (hh : h ≤ 2 ^ 30 - 1) (junk : Junk) :
    (Inside f.fmt f.width f.height (argOr left x).toNat (argOr top y).toNat w.toNat h.toNat →
      ∃ g, C.frame [c] n junk = .ok g ∧ Valid al g ∧ g.fmt = f.fmt ∧ (g.width : Int) = w ∧ (g.height : Int) = h ∧
        ∀ p : Nat, (p : Int) < f.fmt.numPlanes → (img al g p).Same (crop ((argOr left x).toNat / 2 ^ ssw f.fmt p)
          ((argOr top y).toNat / 2 ^ ssh f.fmt p) (g.w p) (g.h p) (img al f p))) ∧
    (¬ Inside f.fmt f.width f.height (argOr left x).toNat (argOr top y).toNat w.toNat h.toNat →
      ∃ m, C.frame [c] n junk = .err m) := by
  unfold cropAbsCreate at hC
  obtain ⟨o, eo, hC⟩ := bind_eq_ok hC
  cases o with
  | some m => exact absurd hC (by simp)
  | none =>
    obtain ⟨q1, q2, q3, q4, q5, q6, q7, q8, q9⟩ := cropVerify_imp eo
    obtain ⟨rfl, _⟩ := create_eq_ok hC
    have sat : ∀ i, 0 < int64ToIntS i → i ≤ 2 ^ 30 - 1 → int64ToIntS i = i := by
      intro i h1 h2
      refine int64ToIntS_of_inI32 ⟨?_, by unfold INT_MAX; omega⟩
      unfold int64ToIntS INT_MIN at h1
      unfold INT_MIN
      split at h1
      · unfold INT_MAX at *; omega
      · split at h1 <;> omega
    rw [sat w q3 hw] at q3
    rw [sat h q4 hh] at q4
    rw [sat w (by rw [int64ToIntS_of_inI32 ⟨by unfold INT_MIN; omega, by unfold INT_MAX; omega⟩]; exact q3) hw,
      sat h (by rw [int64ToIntS_of_inI32 ⟨by unfold INT_MIN; omega, by unfold INT_MAX; omega⟩]; exact q4) hh]
    generalize argOr left x = X at *
    generalize argOr top y = Y at *
    obtain ⟨X, rfl⟩ := Int.eq_ofNat_of_zero_le q1
    obtain ⟨Y, rfl⟩ := Int.eq_ofNat_of_zero_le q2
    obtain ⟨w, rfl⟩ := Int.eq_ofNat_of_zero_le (Int.le_of_lt q3)
    obtain ⟨h, rfl⟩ := Int.eq_ofNat_of_zero_le (Int.le_of_lt q4)
    simp only [Int.toNat_natCast]
    constructor
    · intro hi
      obtain ⟨g, e, h1, h2, h3, h4, h5, h6⟩ := cropFilter_frame ha hv hf hi junk
      refine ⟨g, e, h1, h2, by rw [h3], by rw [h4], ?_⟩
      intro p hp
      have ew : g.w p = w / 2 ^ ssw f.fmt p := by unfold Frm.w; rw [h2, h3]
      have eh : g.h p = h / 2 ^ ssh f.fmt p := by unfold Frm.h; rw [h2, h4]
      rw [ew, eh]
      exact h6 p hp
    · intro hi
      have v := hv.frames f (at_mem hf)
      have vw := v.width
      have vh := v.height
      obtain ⟨m, em⟩ := cropVerify_some (x := X) (y := Y) (w := w) (h := h) (W := f.width) (H := f.height) (fi := f.fmt)
        (by unfold InI32 INT_MIN INT_MAX; omega) (by unfold InI32 INT_MIN INT_MAX; omega) (by omega) (by omega)
        (by simp only [Int.toNat_natCast]; exact fun hh => hi hh.2.2)
      refine ⟨m, frame_err ?_⟩
      show (getFrameFilter [c] [(0, n)] 0 n >>= fun s => cropFrame al X Y w h s junk) = _
      rw [get_ok (i := 0) rfl hv (List.mem_singleton.2 rfl) hf, Res.bind_ok]
      unfold cropFrame
      rw [em, Res.bind_ok]

example : ∃ C, cropAbsCreate 32 exClip.vi (some 2) none none (some 4) 4 2 = .ok C :=
  ⟨_, create_ok (info_resize exClip_valid.info (by decide) (by decide))⟩

/-- C55 is violated for huge arguments: instead of an error there is a signed overflow. -/
theorem C55_crop_overflow_refuted :
    ValidClip 32 exClip ∧ cropRelCreate 32 exClip.vi 0 0 INT_MAX INT_MAX = .ub ∧
      cropRelCreate 32 exClip.vi (-INT_MAX) 0 0 0 = .ub ∧
      cropAbsCreate 32 exClip.vi none none none (some 2) 8 INT_MAX = .ub :=
  ⟨exClip_valid, rfl, rfl, rfl⟩

/-! ## C56 -/

theorem color_ok {f : VFmt} (hn : f.numPlanes = 1 ∨ f.numPlanes = 3) {color : List (Option Nat)} (h : ColorOk f color) :
    ∃ k, borderColor f color = .ok k ∧ ∀ p : Nat, (p : Int) < f.numPlanes → k p = borderValue f color p := by
  unfold borderColor
  rcases h with rfl | ⟨hl, hc⟩
  · rw [if_neg (by simp only [List.length_nil]; omega), if_neg (by simp)]
    refine ⟨_, rfl, ?_⟩
    intro p hp
    unfold setBlack borderValue
    simp only [List.getElem?_nil]
    have : (p = 1 ∨ p = 2) ↔ p ≠ 0 := by omega
    simp only [this]
  · rw [if_pos hl, if_neg]
    · refine ⟨_, rfl, ?_⟩
      intro p hp
      have hp' : p < color.length := by omega
      unfold borderValue
      rw [List.getElem?_eq_getElem hp']
      rcases e : color[p] with _ | v
      · exact absurd e (hc _ (List.getElem_mem hp'))
      · rfl
    · intro hh
      obtain ⟨v, hv, hn⟩ := List.any_eq_true.1 hh
      exact hc v hv (Option.isNone_iff_eq_none.1 hn)

theorem color_bad {f : VFmt} {color : List (Option Nat)} (h : ¬ ColorOk f color) : ∃ m, borderColor f color = .err m := by
  unfold borderColor
  by_cases hl : (color.length : Int) = f.numPlanes
  · rw [if_pos hl, if_pos]
    · exact ⟨_, rfl⟩
    · refine Decidable.byContradiction fun hh => h (Or.inr ⟨hl, ?_⟩)
      rintro v hv rfl
      exact hh (List.any_eq_true.2 ⟨none, hv, rfl⟩)
  · rw [if_neg hl, if_pos]
    · exact ⟨_, rfl⟩
    · rcases color with _ | ⟨a, t⟩
      · exact absurd (Or.inl rfl) h
      · simp

theorem color_inv {f : VFmt} {color : List (Option Nat)} {k : Nat → Nat} (h : borderColor f color = .ok k) : ColorOk f color := by
  refine Classical.byContradiction fun hh => ?_
  obtain ⟨m, em⟩ := color_bad hh
  rw [em] at h
  exact absurd h (by simp)

theorem grow_inv {s a b x : Int} (h : grow s a b = .ok x) : (s = 0 ∧ x = 0) ∨ (s ≠ 0 ∧ x = s + a + b) := by
  unfold grow at h
  split at h
  · obtain ⟨y, hy, h⟩ := bind_eq_ok h
    have h1 := (i32_inv hy).1
    have h2 := (i32_inv h).1
    omega
  · rw [Res.ok.injEq] at h
    omega

/-- The frames of a created AddBorders filter. -/
theorem borders_frame {al : Nat} (ha : AlignOk al) {c : PClip} (hv : ValidClip al c) {l r t b : Int} {color : List (Option Nat)}
    {C : Created} (hC : addBordersCreate al c.vi l r t b color = .ok C) (hp : ¬ (l = 0 ∧ r = 0 ∧ t = 0 ∧ b = 0)) :
    0 ≤ l ∧ 0 ≤ r ∧ 0 ≤ t ∧ 0 ≤ b ∧ BorderOk c.vi.format l.toNat r.toNat t.toNat b.toNat ∧ c.vi.format.colorFamily ≠ cfUndefined ∧
    (∃ F : PFilter, C = .filter F ∧ isValidVideoInfo F.vi = .ok true ∧ F.vi.numFrames = c.vi.numFrames ∧
      F.vi.format = c.vi.format ∧ (c.vi.width ≠ 0 → F.vi.width = c.vi.width + l + r) ∧
      (c.vi.height ≠ 0 → F.vi.height = c.vi.height + t + b)) ∧
    ∀ (n : Nat) f, at? c n = some f → (f.width + l + r) * bps f.fmt ≤ INT_MAX → f.height + t + b ≤ INT_MAX → ∀ junk,
      ∃ g, C.frame [c] n junk = .ok g ∧ Valid al g ∧ g.fmt = f.fmt ∧ (g.width : Int) = f.width + l + r ∧
        (g.height : Int) = f.height + t + b ∧ g.props = swapFields (decide (t % 2 = 1)) f.props ∧
        ∀ p : Nat, (p : Int) < f.fmt.numPlanes → (img al g p).Same
          (border (l.toNat / 2 ^ ssw f.fmt p) (r.toNat / 2 ^ ssw f.fmt p) (t.toNat / 2 ^ ssh f.fmt p) (b.toNat / 2 ^ ssh f.fmt p)
            (bytesOf (bps f.fmt) (borderValue f.fmt color p)) (img al f p)) := by
  unfold addBordersCreate at hC
  rw [if_neg hp] at hC
  split at hC
  · exact absurd hC (by simp)
  rename_i hneg
  have q1 : 0 ≤ l := by omega
  have q2 : 0 ≤ r := by omega
  have q3 : 0 ≤ t := by omega
  have q4 : 0 ≤ b := by omega
  split at hC
  · exact absurd hC (by simp)
  rename_i hk
  obtain ⟨l, rfl⟩ := Int.eq_ofNat_of_zero_le q1
  obtain ⟨r, rfl⟩ := Int.eq_ofNat_of_zero_le q2
  obtain ⟨t, rfl⟩ := Int.eq_ofNat_of_zero_le q3
  obtain ⟨b, rfl⟩ := Int.eq_ofNat_of_zero_le q4
  split at hC
  · exact absurd hC (by simp)
  rename_i hver
  rw [addBordersVerify_none] at hver
  obtain ⟨k, ek, hC⟩ := bind_eq_ok hC
  obtain ⟨H, eH, hC⟩ := bind_eq_ok hC
  obtain ⟨W, eW, hC⟩ := bind_eq_ok hC
  have gH := grow_inv eH
  have gW := grow_inv eW
  obtain ⟨rfl, hinfo⟩ := create_eq_ok hC
  refine ⟨q1, q2, q3, q4, hver, hk, ⟨_, rfl, hinfo, rfl, rfl, ?_, ?_⟩, ?_⟩
  · intro h; show W = _; omega
  · intro h; show H = _; omega
  intro n f hf hw hh junk
  have hm := at_mem hf
  have v := hv.frames f hm
  have e := hv.fmt f hm hk
  have hcol : ∀ p : Nat, (p : Int) < f.fmt.numPlanes → k p = borderValue f.fmt color p := by
    obtain ⟨k', ek', hk'⟩ := color_ok (e ▸ v.ok.planes) (color_inv ek)
    rw [ek, Res.ok.injEq] at ek'
    rw [e, ek']
    exact hk'
  obtain ⟨g, eg, h1, h2, h3, h4, h5, h6⟩ := addBordersFrame_ok (align_pos ha) (align_dvd ha) v (l := l) (r := r) (t := t) (b := b)
    (e ▸ hver) (by
      rw [show ((l + f.width + r : Nat) : Int) = f.width + l + r by omega]; exact hw) (by omega) k junk
  refine ⟨g, ?_, h1, h2, by omega, by omega, ?_, ?_⟩
  · refine one_frame hv hf (F := fun _ s junk => addBordersFrame al l r t b k s junk) eg (fun hk => h2.trans (hv.fmt f hm hk)) ?_
    intro hs
    have hs' : W ≠ 0 ∨ H ≠ 0 := hs
    have := hv.size f hm (by omega)
    show (g.width : Int) = W ∧ (g.height : Int) = H
    have p1 := v.width
    have p2 := v.height
    omega
  · rw [h5]
    have : decide ((t : Int) % 2 = 1) = decide (t % 2 = 1) := decide_eq_decide.2 (by omega)
    rw [this]
  · intro p hp
    rw [← hcol p hp]
    simp only [Int.toNat_natCast]
    exact h6 p hp

theorem border_none (c : List Nat) (i : Img) : i.Same (border 0 0 0 0 c i) := by
  refine ⟨?_, ?_, ?_⟩
  · show _ = 0 + i.w + 0; omega
  · show _ = 0 + i.h + 0; omega
  · intro x y hx hy
    show _ = if 0 ≤ x ∧ x < 0 + i.w ∧ 0 ≤ y ∧ y < 0 + i.h then i.px (x - 0) (y - 0) else c
    rw [if_pos (by omega)]
    rfl

/-- C56. A clip made by `AddBorders` has, in each plane of each frame, the pixels of the input frame, and around them the
given numbers of columns and rows with the given color, or black. -/
theorem C56_borders {al : Nat} (ha : AlignOk al) {c : PClip} (hv : ValidClip al c) {l r t b : Int} {color : List (Option Nat)}
    {C : Created} (hC : addBordersCreate al c.vi l r t b color = .ok C) {n : Nat} {f : Frm} (hf : at? c n = some f)
    (hw : (f.width + l + r) * bps f.fmt ≤ INT_MAX) (hh : f.height + t + b ≤ INT_MAX) (junk : Junk) :
    0 ≤ l ∧ 0 ≤ r ∧ 0 ≤ t ∧ 0 ≤ b ∧
    ∃ g, C.frame [c] n junk = .ok g ∧ Valid al g ∧ g.fmt = f.fmt ∧ (g.width : Int) = f.width + l + r ∧
        (g.height : Int) = f.height + t + b ∧
        ∀ p : Nat, (p : Int) < f.fmt.numPlanes → (img al g p).Same
          (border (l.toNat / 2 ^ ssw f.fmt p) (r.toNat / 2 ^ ssw f.fmt p) (t.toNat / 2 ^ ssh f.fmt p) (b.toNat / 2 ^ ssh f.fmt p)
            (bytesOf (bps f.fmt) (borderValue f.fmt color p)) (img al f p)) := by
  by_cases hp : l = 0 ∧ r = 0 ∧ t = 0 ∧ b = 0
  · unfold addBordersCreate at hC
    rw [if_pos hp, Res.ok.injEq] at hC
    subst hC
    obtain ⟨rfl, rfl, rfl, rfl⟩ := hp
    refine ⟨by omega, by omega, by omega, by omega, f, pass_frame rfl hv hf junk, hv.frames f (at_mem hf), rfl, by omega, by omega, ?_⟩
    intro p _
    simp only [Int.toNat_zero, Nat.zero_div]
    exact border_none _ _
  · obtain ⟨h1, h2, h3, h4, _, _, _, h⟩ := borders_frame ha hv hC hp
    obtain ⟨g, e1, e2, e3, e4, e5, _, e6⟩ := h n f hf hw hh junk
    exact ⟨h1, h2, h3, h4, g, e1, e2, e3, e4, e5, e6⟩

/-- C56. What `AddBorders` accepts; everything else is an error. (For arguments and sizes beyond 2^29 see
`C56_borders_overflow_refuted`.) -/
theorem C56_borders_accepts {al : Nat} {c : PClip} (hv : ValidClip al c) {l r t b : Int} {color : List (Option Nat)}
    (hl : l ≤ 2 ^ 29) (hr : r ≤ 2 ^ 29) (ht : t ≤ 2 ^ 29) (hb : b ≤ 2 ^ 29) (hs : c.vi.width ≤ 2 ^ 29 ∧ c.vi.height ≤ 2 ^ 29)
    (hn : ¬ (l = 0 ∧ r = 0 ∧ t = 0 ∧ b = 0)) :
    ((0 ≤ l ∧ 0 ≤ r ∧ 0 ≤ t ∧ 0 ≤ b ∧ c.vi.format.colorFamily ≠ cfUndefined ∧
        BorderOk c.vi.format l.toNat r.toNat t.toNat b.toNat ∧ ColorOk c.vi.format color) →
      ∃ C, addBordersCreate al c.vi l r t b color = .ok C) ∧
    (¬ (0 ≤ l ∧ 0 ≤ r ∧ 0 ≤ t ∧ 0 ≤ b ∧ c.vi.format.colorFamily ≠ cfUndefined ∧
        BorderOk c.vi.format l.toNat r.toNat t.toNat b.toNat ∧ ColorOk c.vi.format color) →
      ∃ m, addBordersCreate al c.vi l r t b color = .err m) := by
  obtain ⟨i1, i2, i3, i4, i5, i6, i7, i8⟩ := (info_iff c.vi).1 hv.info
  unfold addBordersCreate
  rw [if_neg hn]
  by_cases hneg : l < 0 ∨ r < 0 ∨ t < 0 ∨ b < 0
  · rw [if_pos hneg]
    exact ⟨fun h => by omega, fun _ => ⟨_, rfl⟩⟩
  rw [if_neg hneg]
  by_cases hk : c.vi.format.colorFamily = cfUndefined
  · rw [if_pos hk]
    exact ⟨fun h => absurd hk h.2.2.2.2.1, fun _ => ⟨_, rfl⟩⟩
  rw [if_neg hk]
  obtain ⟨l, rfl⟩ := Int.eq_ofNat_of_zero_le (show 0 ≤ l by omega)
  obtain ⟨r, rfl⟩ := Int.eq_ofNat_of_zero_le (show 0 ≤ r by omega)
  obtain ⟨t, rfl⟩ := Int.eq_ofNat_of_zero_le (show 0 ≤ t by omega)
  obtain ⟨b, rfl⟩ := Int.eq_ofNat_of_zero_le (show 0 ≤ b by omega)
  simp only [Int.toNat_natCast]
  have gr : ∀ (s : Int) (x y : Nat), 0 ≤ s → s ≤ 2 ^ 29 → (x : Int) ≤ 2 ^ 29 → (y : Int) ≤ 2 ^ 29 →
      ∃ z, grow s x y = .ok z ∧ (s = 0 → z = 0) ∧ (s ≠ 0 → 0 < z) := by
    intro s x y h1 h2 h3 h4
    unfold grow
    by_cases hs : s ≠ 0
    · rw [if_pos hs, i32_ok (by unfold InI32 INT_MIN INT_MAX; omega), Res.bind_ok,
        i32_ok (by unfold InI32 INT_MIN INT_MAX; omega)]
      exact ⟨_, rfl, by omega, by omega⟩
    · rw [if_neg hs]
      exact ⟨_, rfl, by omega, by omega⟩
  obtain ⟨H, eH, h1, h2⟩ := gr c.vi.height t b i4 hs.2 ht hb
  obtain ⟨W, eW, w1, w2⟩ := gr c.vi.width l r i5 hs.1 hl hr
  cases hver : addBordersVerify l r t b c.vi.format with
  | some m =>
    refine ⟨fun h => ?_, fun _ => ⟨m, rfl⟩⟩
    rw [addBordersVerify_none.2 h.2.2.2.2.2.1] at hver
    exact absurd hver (by simp)
  | none =>
    have hb := addBordersVerify_none.1 hver
    constructor
    · intro h
      obtain ⟨k, ek, _⟩ := color_ok (fmtOk i1 hk).planes h.2.2.2.2.2.2
      simp only [ek, eH, eW, Res.bind_ok]
      refine ⟨_, create_ok ?_⟩
      rw [info_iff]
      refine ⟨i1, i2, i3, ?_, ?_, i6, i7, ?_⟩
      · show 0 ≤ H
        by_cases e : c.vi.height = 0
        · have := h1 e; omega
        · have := h2 e; omega
      · show 0 ≤ W
        by_cases e : c.vi.width = 0
        · have := w1 e; omega
        · have := w2 e; omega
      · show H ≠ 0 ↔ W ≠ 0
        by_cases e : c.vi.height = 0
        · have := h1 e
          have := w1 (by omega)
          omega
        · have := h2 e
          have := w2 (by omega)
          omega
    · intro h
      obtain ⟨m, em⟩ := color_bad (color := color) (f := c.vi.format) (fun hc => h ⟨by omega, by omega, by omega, by omega, hk, hb, hc⟩)
      exact ⟨m, by simp only [em, Res.bind_err]⟩

/-- Two columns at the left and four rows below in a given color. -/
example : ∃ C, addBordersCreate 32 exClip.vi 2 0 0 4 [some 16, some 128, some 128] = .ok C :=
  (C56_borders_accepts exClip_valid (by decide) (by decide) (by decide) (by decide) (by decide) (by decide)).1
    ⟨by decide, by decide, by decide, by decide, by decide, ⟨by decide, by decide, by decide, by decide⟩,
      Or.inr ⟨by decide, by decide⟩⟩

theorem crop_border {l r t b : Nat} {c : List Nat} {i j : Img} (h : j.Same (border l r t b c i)) :
    (crop l t i.w i.h j).Same i := by
  obtain ⟨h1, h2, h3⟩ := h
  refine ⟨rfl, rfl, ?_⟩
  intro x y hx hy
  have hx' : x < i.w := hx
  have hy' : y < i.h := hy
  have e1 : j.w = l + i.w + r := h1
  have e2 : j.h = t + i.h + b := h2
  show j.px (x + l) (y + t) = _
  rw [h3 _ _ (by omega) (by omega)]
  show (if l ≤ x + l ∧ x + l < l + i.w ∧ t ≤ y + t ∧ y + t < t + i.h then i.px (x + l - l) (y + t - t) else c) = _
  rw [if_pos (by omega), Nat.add_sub_cancel, Nat.add_sub_cancel]

/-- C56. What `AddBorders` puts around a picture, `Crop` takes away again: with the same four numbers it accepts the clip
with borders and delivers the pictures of the original clip. -/
theorem C56_crop_borders {al : Nat} (ha : AlignOk al) {c d : PClip} (hv : ValidClip al c) {l r t b : Int}
    {color : List (Option Nat)} {A : Created} (hA : addBordersCreate al c.vi l r t b color = .ok A) (hd : Delivers A [c] d)
    (hcon : 0 < c.vi.width ∧ 0 < c.vi.height ∧ c.vi.format.colorFamily ≠ cfUndefined)
    (hl : l ≤ 2 ^ 29) (hr : r ≤ 2 ^ 29) (ht : t ≤ 2 ^ 29) (hb : b ≤ 2 ^ 29) (hs : c.vi.width + l + r < 2 ^ 30)
    (hs2 : c.vi.height + t + b < 2 ^ 30) (hw : (c.vi.width + l + r) * bps c.vi.format ≤ INT_MAX) :
    ∃ B, cropRelCreate al d.vi l r t b = .ok B ∧ ∀ (n : Nat) f, (n : Int) < c.vi.numFrames → at? c n = some f → ∀ junk,
      ∃ g, B.frame [d] n junk = .ok g ∧ g.fmt = f.fmt ∧ g.width = f.width ∧ g.height = f.height ∧
        ∀ p : Nat, (p : Int) < f.fmt.numPlanes → (img al g p).Same (img al f p) := by
  have key : 0 ≤ l ∧ 0 ≤ r ∧ 0 ≤ t ∧ 0 ≤ b ∧ ValidClip al d ∧ d.vi.width = c.vi.width + l + r ∧ d.vi.height = c.vi.height + t + b ∧
      d.vi.format = c.vi.format ∧ d.vi.numFrames = c.vi.numFrames ∧ BorderOk c.vi.format l.toNat r.toNat t.toNat b.toNat := by
    by_cases hp : l = 0 ∧ r = 0 ∧ t = 0 ∧ b = 0
    · unfold addBordersCreate at hA
      rw [if_pos hp, Res.ok.injEq] at hA
      subst hA
      have := delivers_pass (i := 0) rfl hv hd
      subst this
      obtain ⟨rfl, rfl, rfl, rfl⟩ := hp
      exact ⟨by omega, by omega, by omega, by omega, hv, by omega, by omega, rfl, rfl, Nat.dvd_zero _, Nat.dvd_zero _,
        Nat.dvd_zero _, Nat.dvd_zero _⟩
    · obtain ⟨h1, h2, h3, h4, h5, h6, ⟨F, rfl, f1, f2, f3, f4, f5⟩, h⟩ := borders_frame ha hv hA hp
      have e : F.vi = d.vi := Option.some.inj hd.vi
      rw [← e]
      refine ⟨h1, h2, h3, h4, delivers_valid hd f1 (f2 ▸ hv.range) ?_, f4 (by omega), f5 (by omega), f3, f2, h5⟩
      intro n junk g hg
      obtain ⟨f, hf, hm⟩ := at_some hv n
      have hsz := hv.size f hm (by omega)
      obtain ⟨g', e1, e2, _⟩ := h n f hf (by rw [hsz.1, hv.fmt f hm hcon.2.2]; exact hw) (by unfold INT_MAX; omega) junk
      have : g = g' := Res.ok.inj (hg.symm.trans e1)
      exact this ▸ e2
  obtain ⟨k1, k2, k3, k4, vd, kw, kh, kf, kn, kb⟩ := key
  obtain ⟨B, hB⟩ := (C55_crop_accepts (al := al) vd (l := l) (r := r) (t := t) (b := b)
    ⟨by omega, by omega, kf ▸ hcon.2.2⟩ ⟨by omega, hl⟩ ⟨by omega, hr⟩ ⟨by omega, ht⟩ ⟨by omega, hb⟩ ⟨by omega, by omega⟩).1
    ⟨by omega, by omega, by omega, by omega, by omega, by omega, kf ▸ kb⟩
  refine ⟨B, hB, ?_⟩
  intro n f hn hf junk
  obtain ⟨e, he, hme⟩ := at_some vd n
  obtain ⟨junk', hj⟩ := delivers_at hd vd (by omega) he
  have hm := at_mem hf
  have hsz := hv.size f hm (by omega)
  obtain ⟨_, _, _, _, e', g1, g2, g3, g4, g5, g6⟩ := C56_borders ha hv hA hf
    (by rw [hsz.1, hv.fmt f hm hcon.2.2]; exact hw) (by unfold INT_MAX; omega) junk'
  have ee : e = e' := Res.ok.inj (hj.symm.trans g1)
  subst ee
  obtain ⟨_, _, _, _, g, q1, q2, q3, q4, q5, q6⟩ := C55_crop ha vd hB he junk
  have ef : g.fmt = f.fmt := q3.trans g3
  have ew : g.width = f.width := by omega
  have eh : g.height = f.height := by omega
  refine ⟨g, q1, ef, ew, eh, ?_⟩
  intro p hp
  refine Same.trans (q6 p (g3 ▸ hp)) ?_
  rw [g3, show g.w p = (img al f p).w by show g.width / 2 ^ ssw g.fmt p = f.width / 2 ^ ssw f.fmt p; rw [ef, ew],
    show g.h p = (img al f p).h by show g.height / 2 ^ ssh g.fmt p = f.height / 2 ^ ssh f.fmt p; rw [ef, eh]]
  exact crop_border (g6 p hp)

/-- There is such a clip with borders. -/
example : ∃ A d, addBordersCreate 32 exClip.vi 2 0 0 4 [] = .ok A ∧ Delivers A [exClip] d := by
  obtain ⟨A, hA⟩ := (C56_borders_accepts (al := 32) (l := 2) (r := 0) (t := 0) (b := 4) (color := []) exClip_valid (by decide)
    (by decide) (by decide) (by decide) (by decide) (by decide)).1
    ⟨by decide, by decide, by decide, by decide, by decide, ⟨by decide, by decide, by decide, by decide⟩, Or.inl rfl⟩
  obtain ⟨_, _, _, _, _, _, ⟨F, rfl, _, f2, _⟩, h⟩ := borders_frame (Or.inl rfl) exClip_valid hA (by decide)
  obtain ⟨d, hd⟩ := exists_delivers (c := .filter F) (clips := [exClip]) rfl (by rw [f2]; decide) (fun n => by
    obtain ⟨f, hf, hm⟩ := at_some exClip_valid n
    obtain ⟨g, e, _⟩ := h n f hf (by
      have := exClip_valid.size f hm (Or.inl (by decide))
      rw [this.1, exClip_valid.fmt f hm (by decide)]; decide) (by
      have := exClip_valid.size f hm (Or.inl (by decide))
      rw [this.2]; decide) (fun _ _ => 0)
    exact ⟨g, e⟩)
  exact ⟨_, d, hA, hd⟩

/-- C56 is violated for huge borders: instead of an error there is a signed overflow. -/
theorem C56_borders_overflow_refuted :
    ValidClip 32 exClip ∧ addBordersCreate 32 exClip.vi (INT_MAX - 1) (INT_MAX - 1) 0 0 [] = .ub ∧
      addBordersCreate 32 exClip.vi 0 0 (INT_MAX - 1) 0 [] = .ub :=
  ⟨exClip_valid, rfl, rfl⟩

end VS.Pix
