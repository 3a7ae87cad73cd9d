import Verif.Pix.Example
import Verif.Pix.LemmasShuffle
import Verif.Pix.PropsStack
import Verif.Reorder.LemmasWeave

/-! # C60: SeparateFields and DoubleWeave -/

namespace VS.Pix
open VS VS.Format VS.Map VS.Map.Spec VS.Pix.Spec

theorem sat_eq {x : Int} {k : Int} (hk : k = 1 ∨ k = 2) : int64ToIntS x = k ↔ x = k := by
  unfold int64ToIntS INT_MAX INT_MIN
  split
  · omega
  · split <;> omega

theorem order_eq (tff : Option Bool) (d : Dict) : fieldOrder tff d = topFirst tff d := by
  have h1 : fieldOrder tff d = if (propInt d "_FieldBased").getD 0 = 1 then some false
      else if (propInt d "_FieldBased").getD 0 = 2 then some true else tff := by
    unfold fieldOrder
    simp only [sat_eq (Or.inl rfl), sat_eq (Or.inr rfl)]
  rw [h1]
  unfold topFirst
  generalize propInt d "_FieldBased" = e
  rcases e with _ | i
  · rfl
  · simp only [Option.getD_some]
    by_cases h1 : i = 1
    · subst h1; rfl
    by_cases h2 : i = 2
    · subst h2; rfl
    rw [if_neg h1, if_neg h2]
    split
    · rename_i h; exact absurd (Option.some.inj h) h1
    · rename_i h; exact absurd (Option.some.inj h) h2
    · rfl

theorem pair_eq (tff : Option Bool) (n : Nat) (d1 d2 : Dict) : firstIsTop tff n d1 d2 = firstTop tff n d1 d2 := by
  have par : ∀ t, ((n % 2 == 1) ^^ t) = isTop n t := by
    intro t
    unfold isTop
    split
    · rename_i h; rw [h]; cases t <;> rfl
    · rw [show n % 2 = 1 by omega]; cases t <;> rfl
  unfold firstIsTop firstTop
  simp only [par]
  generalize propInt d1 "_Field" = a
  generalize propInt d2 "_Field" = b
  by_cases h1 : a = some 0 ∧ b = some 1
  · obtain ⟨rfl, rfl⟩ := h1; rfl
  by_cases h2 : a = some 1 ∧ b = some 0
  · obtain ⟨rfl, rfl⟩ := h2; rfl
  have e1 : ∀ (o : Option Int) (i : Int), i = 0 ∨ i = 1 → o.getD (-1) = i → o = some i := by
    rintro (_ | o) i hi h
    · simp only [Option.getD_none] at h; omega
    · rw [← h]; rfl
  rw [if_neg (fun h => h1 ⟨e1 a 0 (Or.inl rfl) h.1, e1 b 1 (Or.inr rfl) h.2⟩),
    if_neg (fun h => h2 ⟨e1 a 1 (Or.inr rfl) h.1, e1 b 0 (Or.inl rfl) h.2⟩)]
  split
  · exact absurd ⟨rfl, rfl⟩ h1
  · exact absurd ⟨rfl, rfl⟩ h2
  · rfl

theorem get_self (d : Dict) (k : Key) (e : Option Entry) : (d.put k e).get k = e := by
  unfold Dict.put Dict.get; simp

theorem get_other (d : Dict) {k k' : Key} (e : Option Entry) (h : k' ≠ k) : (d.put k e).get k' = d.get k' := by
  show (if k' = k then e else d.get k') = _
  rw [if_neg h]

theorem propInt_congr {d e : Dict} {k : Key} (h : d.get k = e.get k) : propInt d k = propInt e k := by
  unfold propInt; rw [h]

/-- The duration is all that is changed. -/
theorem halve_rest {m : Bool} {d e : Dict} (h : halveDuration m d = .ok e) {k : Key} (h1 : k ≠ "_DurationNum")
    (h2 : k ≠ "_DurationDen") : e.get k = d.get k := by
  unfold halveDuration at h
  split at h
  · split at h
    · obtain ⟨r, _, h⟩ := bind_eq_ok h
      rw [Res.ok.injEq] at h
      subst h
      unfold setInt
      rw [get_other _ _ h2, get_other _ _ h1]
    · rw [Res.ok.injEq] at h
      rw [h]
  · rw [Res.ok.injEq] at h
    rw [h]

theorem halve_ok {d : Dict} (m : Bool) (hd : m = true → DurOk d) : ∃ e, halveDuration m d = .ok e ∧
    (∀ a b, m = true → propInt d "_DurationNum" = some a → propInt d "_DurationDen" = some b →
      e.get "_DurationNum" = one (halfOf a b).1 ∧ e.get "_DurationDen" = one (halfOf a b).2) ∧
    (m = false ∨ propInt d "_DurationNum" = none ∨ propInt d "_DurationDen" = none → e = d) := by
  unfold halveDuration
  cases m with
  | false => exact ⟨d, rfl, fun _ _ h => absurd h (by simp), fun _ => rfl⟩
  | true =>
    rw [if_pos rfl]
    rcases e1 : propInt d "_DurationNum" with _ | a
    · exact ⟨d, rfl, fun _ _ _ h => absurd h (by simp), fun _ => rfl⟩
    rcases e2 : propInt d "_DurationDen" with _ | b
    · exact ⟨d, rfl, fun _ _ _ _ h => absurd h (by simp), fun _ => rfl⟩
    have em : muldivRational a b 1 2 = .ok (halfOf a b) := by
      unfold halfOf
      by_cases hb : b = 0
      · subst hb
        rw [C22_zero_den, if_pos rfl]
      · rw [if_neg hb]
        obtain ⟨f1, f2⟩ := hd rfl a b e1 e2 hb
        rw [C22_muldivRational a b 1 2 hb (by decide) (by simpa using f1) f2]
        simp only [Int.sign_mul, show Int.sign 2 = 1 from rfl, Int.mul_one]
        rfl
    simp only [em, Res.bind_ok]
    refine ⟨_, rfl, ?_, fun h => absurd h (by simp)⟩
    intro a' b' _ h1 h2
    rw [Option.some.injEq] at h1 h2
    subst h1 h2
    unfold setInt
    rw [get_other _ _ (by decide), get_self, get_self]
    exact ⟨rfl, rfl⟩

/-- The properties of a field. -/
theorem fieldProps_ok (d : Dict) (top m : Bool) (hd : m = true → DurOk d) :
    ∃ e, halveDuration m ((setInt d "_Field" (if top then 1 else 0)).put "_FieldBased" none) = .ok e ∧ FieldProps d e top m := by
  have k1 : ((setInt d "_Field" (if top then 1 else 0)).put "_FieldBased" none).get "_DurationNum" = d.get "_DurationNum" := by
    unfold setInt; rw [get_other _ _ (by decide), get_other _ _ (by decide)]
  have k2 : ((setInt d "_Field" (if top then 1 else 0)).put "_FieldBased" none).get "_DurationDen" = d.get "_DurationDen" := by
    unfold setInt; rw [get_other _ _ (by decide), get_other _ _ (by decide)]
  obtain ⟨e, h1, h2, h3⟩ := halve_ok (d := (setInt d "_Field" (if top then 1 else 0)).put "_FieldBased" none) m (by
    intro hm a b ha hb
    rw [propInt_congr k1] at ha
    rw [propInt_congr k2] at hb
    exact hd hm a b ha hb)
  rw [propInt_congr k1, propInt_congr k2] at h2 h3
  refine ⟨e, h1, ?_, ?_, h2, ?_, ?_⟩
  · rw [halve_rest h1 (by decide) (by decide)]
    unfold setInt
    rw [get_other _ _ (by decide), get_self]
    rfl
  · rw [halve_rest h1 (by decide) (by decide), get_self]
  · intro h
    rw [h3 h]
    exact ⟨k1, k2⟩
  · intro k a1 a2 a3 a4
    rw [halve_rest h1 a3 a4]
    unfold setInt
    rw [get_other _ _ a2, get_other _ _ a1]

theorem const_iff' (vi : VInfo) : isConstantVideoFormat vi = true ↔ 0 < vi.width ∧ 0 < vi.height ∧ vi.format.colorFamily ≠ cfUndefined := by
  unfold isConstantVideoFormat
  rw [decide_eq_true_iff]
  exact ⟨fun h => ⟨h.2.1, h.1, h.2.2⟩, fun h => ⟨h.2.1, h.1, h.2.2⟩⟩

/-- What `SeparateFields` has checked. -/
theorem separate_inv {al : Nat} {vi : VInfo} {tff modify : Option Bool} {C : Created} (h : separateFieldsCreate al vi tff modify = .ok C) :
    isConstantVideoFormat vi = true ∧ vi.height % 2 ^ (vi.format.subSamplingH.toNat + 1) = 0 ∧ vi.numFrames * 2 ≤ INT_MAX ∧
    ∃ fps : Int × Int, C = .filter (fieldFilter al { vi with numFrames := vi.numFrames * 2, height := vi.height / 2, fpsNum := fps.1, fpsDen := fps.2 }
        tff (modify.getD true)) ∧
      Format.isValidVideoInfo { vi with numFrames := vi.numFrames * 2, height := vi.height / 2, fpsNum := fps.1, fpsDen := fps.2 } = .ok true := by
  unfold separateFieldsCreate at h
  split at h
  · exact absurd h (by simp)
  rename_i h1
  split at h
  · exact absurd h (by simp)
  rename_i h2
  split at h
  · exact absurd h (by simp)
  rename_i h3
  obtain ⟨fps, _, h⟩ := bind_eq_ok h
  obtain ⟨e1, e2⟩ := create_eq_ok h
  refine ⟨by simpa using h1, Decidable.not_not.1 h2, by unfold INT_MAX at *; omega, fps, e1, e2⟩

/-- The frames before the properties are set. -/
theorem separate_core {al : Nat} (ha : AlignOk al) {c : PClip} (hv : ValidClip al c) {tff modify : Option Bool} {C : Created}
    (hC : separateFieldsCreate al c.vi tff modify = .ok C) {n : Nat} {f : Frm} (hf : at? c (n / 2) = some f) (junk : Junk) :
    (topFirst tff f.props = none → ∃ m, C.frame [c] n junk = .err m) ∧
    ∀ t, topFirst tff f.props = some t → ∃ g, Valid al g ∧ g.fmt = f.fmt ∧ g.width = f.width ∧ g.height = f.height / 2 ∧
      (∀ p : Nat, (p : Int) < f.fmt.numPlanes → (img al g p).Same (field (isTop n t) (img al f p))) ∧
      C.frame [c] n junk = (halveDuration (modify.getD true)
        ((setInt f.props "_Field" (if isTop n t then 1 else 0)).put "_FieldBased" none) >>= fun props => .ok { g with props := props }) := by
  obtain ⟨c1, c2, c3, fps, rfl, c5⟩ := separate_inv hC
  have hcon := (const_iff' _).1 c1
  have hm := at_mem hf
  have vf := hv.frames f hm
  have hfm := hv.fmt f hm hcon.2.2
  obtain ⟨s1, s2⟩ := hv.size f hm (by omega)
  have h2 : 2 ^ (f.fmt.subSamplingH.toNat + 1) ∣ f.height := by
    rw [hfm, ← mod_dvd, s2]; exact c2
  have hrd : ∀ vi' : VInfo, (fieldFilter al vi' tff (modify.getD true)).ready n
      (getFrameFilter [c] ((fieldFilter al vi' tff (modify.getD true)).reqs n)) junk = separateFrame al vi' tff (modify.getD true) n f junk := by
    intro vi'
    show (getFrameFilter [c] [(0, n / 2)] 0 (n / 2) >>= fun s => separateFrame al vi' tff (modify.getD true) n s junk) = _
    rw [get_ok (i := 0) rfl hv (List.mem_singleton.2 rfl) hf, Res.bind_ok]
  constructor
  · intro ht
    refine ⟨_, frame_err (m := "SeparateFields: no field order provided") ?_⟩
    rw [hrd]
    unfold separateFrame
    rw [order_eq, ht]
  · intro t ht
    have par : ((n % 2 == 1) ^^ t) = isTop n t := by
      unfold isTop
      split
      · rename_i h; rw [h]; cases t <;> rfl
      · rw [show n % 2 = 1 by omega]; cases t <;> rfl
    obtain ⟨g, e, h1, h3, h4, h5, h6, h7⟩ := fieldBuild_ok (align_pos ha) (isTop n t) vf h2 f.props junk
    refine ⟨g, h1, h3, h4, h5, h7, ?_⟩
    have hh : c.vi.height / 2 = ((f.height / 2 : Nat) : Int) := by rw [← s2]; simp
    have hsf : ∀ vi' : VInfo, vi'.format = f.fmt → vi'.width = f.width → vi'.height = ((f.height / 2 : Nat) : Int) →
        separateFrame al vi' tff (modify.getD true) n f junk = (halveDuration (modify.getD true)
        ((setInt f.props "_Field" (if isTop n t then 1 else 0)).put "_FieldBased" none) >>= fun props => .ok { g with props := props }) := by
      intro vi' w1 w2 w3
      unfold separateFrame
      rw [order_eq, ht]
      simp only
      rw [par, w1, w2, w3, ← bind_assoc, e, Res.bind_ok, h6]
    have hr := (hrd _).trans (hsf { c.vi with numFrames := c.vi.numFrames * 2, height := c.vi.height / 2, fpsNum := fps.1, fpsDen := fps.2 }
      hfm.symm s1.symm hh)
    rcases ed : halveDuration (modify.getD true) ((setInt f.props "_Field" (if isTop n t then 1 else 0)).put "_FieldBased" none)
      with e | m | m | _
    · rw [ed, Res.bind_ok] at hr
      rw [Res.bind_ok]
      refine frame_ok hr (fun _ => h3.trans hfm) (fun _ => ⟨?_, ?_⟩)
      · show (g.width : Int) = c.vi.width; rw [h4]; exact s1
      · show (g.height : Int) = c.vi.height / 2; rw [h5, hh]
    all_goals
      rw [ed] at hr
      show PFilter.frame _ _ _ _ = _
      unfold PFilter.frame
      rw [hr]
      rfl

/-- C60. Frame `n` of `SeparateFields` is one field of frame `n / 2` of the clip: every other line, from the first line on if
it is the top field. The top field is the first one if the frame property or else the argument says so; without any of them
the request fails. The frame property `_Field` says which field it is. -/
theorem C60_separate {al : Nat} (ha : AlignOk al) {c : PClip} (hv : ValidClip al c) {tff modify : Option Bool} {C : Created}
    (hC : separateFieldsCreate al c.vi tff modify = .ok C) {n : Nat} {f : Frm} (hf : at? c (n / 2) = some f) (junk : Junk) :
    (topFirst tff f.props = none → ∃ m, C.frame [c] n junk = .err m) ∧
    ∀ t, topFirst tff f.props = some t → (modify.getD true = true → DurOk f.props) → ∃ g, C.frame [c] n junk = .ok g ∧
      Valid al g ∧ g.fmt = f.fmt ∧ g.width = f.width ∧ g.height = f.height / 2 ∧
      FieldProps f.props g.props (isTop n t) (modify.getD true) ∧
      ∀ p : Nat, (p : Int) < f.fmt.numPlanes → (img al g p).Same (field (isTop n t) (img al f p)) := by
  obtain ⟨h1, h2⟩ := separate_core ha hv hC hf junk
  refine ⟨h1, ?_⟩
  intro t ht hd
  obtain ⟨g, g1, g2, g3, g4, g5, g6⟩ := h2 t ht
  obtain ⟨e, e1, e2⟩ := fieldProps_ok f.props (isTop n t) (modify.getD true) hd
  rw [e1, Res.bind_ok] at g6
  exact ⟨_, g6, ⟨g1.fmt, g1.known, g1.width, g1.height, g1.modW, g1.modH, g1.row, g1.rows, g1.count, g1.size⟩, g2, g3, g4, e2, g5⟩

/-- A frame rate multiplied by 2. -/
theorem rate2 {vi : VInfo} (hv : Format.isValidVideoInfo vi = .ok true) (hf : vi.fpsDen ≠ 0 → Fits (vi.fpsNum * 2) ∧ Fits vi.fpsDen) :
    muldivRational vi.fpsNum vi.fpsDen 2 1 = .ok (Reorder.Spec.scaledRate vi.fpsNum vi.fpsDen 2) ∧
    0 ≤ (Reorder.Spec.scaledRate vi.fpsNum vi.fpsDen 2).1 ∧ 0 ≤ (Reorder.Spec.scaledRate vi.fpsNum vi.fpsDen 2).2 ∧
    reduceRational (Reorder.Spec.scaledRate vi.fpsNum vi.fpsDen 2).1 (Reorder.Spec.scaledRate vi.fpsNum vi.fpsDen 2).2 =
      .ok (Reorder.Spec.scaledRate vi.fpsNum vi.fpsDen 2) := by
  obtain ⟨i1, i2, i3, i4, i5, i6, i7, i8⟩ := (info_iff vi).1 hv
  by_cases h0 : vi.fpsDen = 0
  · have e : Reorder.Spec.scaledRate vi.fpsNum vi.fpsDen 2 = (vi.fpsNum, vi.fpsDen) := by
      simp [Reorder.Spec.scaledRate, h0]
    rw [e]
    exact ⟨by simp [muldivRational, h0], i3, i2, i7⟩
  · obtain ⟨f1, f2⟩ := hf h0
    have e2 : ((2 : Int) : Rat) / ((1 : Int) : Rat) = 2 := by decide +kernel
    have hq : ((vi.fpsNum : Rat) / vi.fpsDen) * 2 = Rat.divInt (vi.fpsNum * 2) (vi.fpsDen * 1) := by
      rw [← e2]
      simp only [← Rat.divInt_eq_div, Rat.divInt_mul_divInt]
    have hm := C22_muldivRational vi.fpsNum vi.fpsDen 2 1 h0 (by decide) f1 (by simpa using f2)
    have hpos : 0 < vi.fpsDen * 1 := by omega
    have hb := Reorder.divInt_bounds (n := vi.fpsNum * 2) (d := vi.fpsDen * 1) (by omega) hpos
    have e : Reorder.Spec.scaledRate vi.fpsNum vi.fpsDen 2 = ((Rat.divInt (vi.fpsNum * 2) (vi.fpsDen * 1)).num,
        ((Rat.divInt (vi.fpsNum * 2) (vi.fpsDen * 1)).den : Int)) := by
      simp only [Reorder.Spec.scaledRate, if_neg h0, hq]
    simp only [e2, hq, Int.sign_eq_one_of_pos hpos, Int.one_mul] at hm
    rw [e]
    refine ⟨hm, hb.1, Int.natCast_nonneg _, ?_⟩
    generalize hQ : Rat.divInt (vi.fpsNum * 2) (vi.fpsDen * 1) = q at *
    have hden : 0 < q.den := q.den_pos
    have hr := C22_reduceRational q.num q.den (by omega)
      (by simp only [Fits, INT64_MIN, INT64_MAX] at *; omega)
      (by simp only [Fits, INT64_MIN, INT64_MAX] at *; omega)
    have hqq : ((q.num : Int) : Rat) / ((q.den : Int) : Rat) = q := by
      rw [← Rat.divInt_eq_div, Rat.num_divInt_den]
    simp only [hqq, Int.sign_eq_one_of_pos (show 0 < (q.den : Int) by omega), Int.one_mul] at hr
    exact hr

/-- C60. `SeparateFields` accepts the clips of constant format and size whose height can be halved in all planes, unless
there are too many frames. There are twice as many frames of half the height; the frame rate is doubled unless it is to be
kept. Provided the double rate fits into 64 bits, see `C60_rate_refuted`. -/
theorem C60_separate_accepts {al : Nat} {c : PClip} (hv : ValidClip al c) (tff modify : Option Bool)
    (hr : c.vi.fpsDen ≠ 0 → Fits (c.vi.fpsNum * 2) ∧ Fits c.vi.fpsDen) :
    ((0 < c.vi.width ∧ 0 < c.vi.height ∧ c.vi.format.colorFamily ≠ cfUndefined) ∧
        c.vi.height % 2 ^ (c.vi.format.subSamplingH.toNat + 1) = 0 ∧ c.vi.numFrames * 2 ≤ INT_MAX →
      ∃ C vi, separateFieldsCreate al c.vi tff modify = .ok C ∧ outInfo C [c] = some vi ∧ vi.numFrames = c.vi.numFrames * 2 ∧
        vi.format = c.vi.format ∧ vi.width = c.vi.width ∧ vi.height * 2 = c.vi.height ∧
        (vi.fpsNum, vi.fpsDen) = if modify.getD true then Reorder.Spec.scaledRate c.vi.fpsNum c.vi.fpsDen 2 else (c.vi.fpsNum, c.vi.fpsDen)) ∧
    (¬ ((0 < c.vi.width ∧ 0 < c.vi.height ∧ c.vi.format.colorFamily ≠ cfUndefined) ∧
        c.vi.height % 2 ^ (c.vi.format.subSamplingH.toNat + 1) = 0 ∧ c.vi.numFrames * 2 ≤ INT_MAX) →
      ∃ m, separateFieldsCreate al c.vi tff modify = .err m) := by
  obtain ⟨i1, i2, i3, i4, i5, i6, i7, i8⟩ := (info_iff c.vi).1 hv.info
  constructor
  · rintro ⟨hcon, h2, h3⟩
    have hc := (const_iff' c.vi).2 hcon
    have hh : 2 ∣ c.vi.height := by
      have : (2 : Int) ^ (c.vi.format.subSamplingH.toNat + 1) ∣ c.vi.height := Int.dvd_of_emod_eq_zero h2
      exact Int.dvd_trans (by rw [Int.pow_succ]; exact Int.dvd_mul_left _ _) this
    have core : ∀ fps : Int × Int, fieldRate (modify.getD true) c.vi = .ok fps → 0 ≤ fps.1 → 0 ≤ fps.2 →
        reduceRational fps.1 fps.2 = .ok fps →
        ∃ C vi, separateFieldsCreate al c.vi tff modify = .ok C ∧ outInfo C [c] = some vi ∧ vi.numFrames = c.vi.numFrames * 2 ∧
        vi.format = c.vi.format ∧ vi.width = c.vi.width ∧ vi.height * 2 = c.vi.height ∧ (vi.fpsNum, vi.fpsDen) = fps := by
      intro fps e r1 r2 r3
      have hinfo : Format.isValidVideoInfo { c.vi with numFrames := c.vi.numFrames * 2, height := c.vi.height / 2, fpsNum := fps.1, fpsDen := fps.2 } = .ok true := by
        rw [info_iff]
        refine ⟨i1, r2, r1, ?_, i5, ?_, r3, ?_⟩
        · show 0 ≤ c.vi.height / 2; omega
        · show 1 ≤ c.vi.numFrames * 2; omega
        · show c.vi.height / 2 ≠ 0 ↔ c.vi.width ≠ 0; omega
      refine ⟨.filter (fieldFilter al { c.vi with numFrames := c.vi.numFrames * 2, height := c.vi.height / 2, fpsNum := fps.1, fpsDen := fps.2 }
        tff (modify.getD true)), _, ?_, rfl, rfl, rfl, rfl, ?_, rfl⟩
      · unfold separateFieldsCreate
        rw [hc]
        simp only [Bool.not_true, Bool.false_eq_true, if_false]
        rw [if_neg (by omega), if_neg (by unfold INT_MAX at *; omega), e, Res.bind_ok]
        exact create_ok hinfo
      · show c.vi.height / 2 * 2 = _; omega
    cases hm : modify.getD true with
    | false =>
      obtain ⟨C, vi, q⟩ := core (c.vi.fpsNum, c.vi.fpsDen) (by unfold fieldRate; rw [hm]; rfl) i3 i2 i7
      exact ⟨C, vi, q⟩
    | true =>
      obtain ⟨r1, r2, r3, r4⟩ := rate2 hv.info hr
      obtain ⟨C, vi, q⟩ := core _ (by unfold fieldRate; rw [hm]; exact r1) r2 r3 r4
      exact ⟨C, vi, q⟩
  · intro hn
    unfold separateFieldsCreate
    by_cases hc : isConstantVideoFormat c.vi = true
    · rw [hc]
      simp only [Bool.not_true, Bool.false_eq_true, if_false]
      by_cases h2 : c.vi.height % 2 ^ (c.vi.format.subSamplingH.toNat + 1) = 0
      · rw [if_neg (by omega), if_pos]
        · exact ⟨_, rfl⟩
        · refine Decidable.byContradiction fun h3 => hn ⟨(const_iff' _).1 hc, h2, ?_⟩
          unfold INT_MAX at *; omega
      · rw [if_pos h2]
        exact ⟨_, rfl⟩
    · rw [show isConstantVideoFormat c.vi = false by simpa using hc]
      exact ⟨_, rfl⟩

/-- The first clip of the examples is accepted. -/
example : (exClip.vi.fpsDen ≠ 0 → Fits (exClip.vi.fpsNum * 2) ∧ Fits exClip.vi.fpsDen) ∧
    (0 < exClip.vi.width ∧ 0 < exClip.vi.height ∧ exClip.vi.format.colorFamily ≠ cfUndefined) ∧
    exClip.vi.height % 2 ^ (exClip.vi.format.subSamplingH.toNat + 1) = 0 ∧ exClip.vi.numFrames * 2 ≤ INT_MAX ∧
    topFirst (some true) (mkFrame 32 yuv420 8 8 exPx Dict.empty).props = some true ∧
    DurOk (mkFrame 32 yuv420 8 8 exPx Dict.empty).props := by
  refine ⟨by decide, by decide, by decide, by decide, rfl, ?_⟩
  intro a b h
  exact absurd h (by simp [propInt, mkFrame, Dict.empty])

/-! ## DoubleWeave -/

/-- C60. `DoubleWeave` accepts the clips of constant format and size; the height is doubled. Provided the double height fits
into an `int`, see `C60_weave_overflow_refuted`. -/
theorem C60_weave_accepts {al : Nat} {c : PClip} (hv : ValidClip al c) (tff : Option Bool) (hh : c.vi.height * 2 ≤ INT_MAX) :
    ((0 < c.vi.width ∧ 0 < c.vi.height ∧ c.vi.format.colorFamily ≠ cfUndefined) →
      ∃ C, doubleWeaveCreate al c.vi tff = .ok C ∧ outInfo C [c] = some { c.vi with height := c.vi.height * 2 }) ∧
    (¬ (0 < c.vi.width ∧ 0 < c.vi.height ∧ c.vi.format.colorFamily ≠ cfUndefined) →
      ∃ m, doubleWeaveCreate al c.vi tff = .err m) := by
  obtain ⟨i1, i2, i3, i4, i5, i6, i7, i8⟩ := (info_iff c.vi).1 hv.info
  have e32 : i32 (c.vi.height * 2) = .ok (c.vi.height * 2) := i32_ok (by unfold InI32 INT_MIN INT_MAX at *; omega)
  have hiff : isConstantVideoFormat { c.vi with height := c.vi.height * 2 } = true ↔
      0 < c.vi.width ∧ 0 < c.vi.height ∧ c.vi.format.colorFamily ≠ cfUndefined := by
    rw [const_iff']
    show 0 < c.vi.width ∧ 0 < c.vi.height * 2 ∧ _ ↔ _
    refine and_congr_right fun _ => and_congr_left fun _ => ?_
    omega
  constructor
  · intro hcon
    have hinfo := info_resize hv.info hcon.1 (show 0 < c.vi.height * 2 by omega)
    refine ⟨.filter (weaveFilter al { c.vi with height := c.vi.height * 2 } tff), ?_, rfl⟩
    unfold doubleWeaveCreate
    rw [e32, Res.bind_ok, hiff.2 hcon]
    exact create_ok (f := weaveFilter al { c.vi with height := c.vi.height * 2 } tff) hinfo
  · intro hn
    unfold doubleWeaveCreate
    rw [e32, Res.bind_ok, show isConstantVideoFormat { c.vi with height := c.vi.height * 2 } = false by
      rw [← Bool.not_eq_true]; exact fun h => hn (hiff.1 h)]
    exact ⟨_, rfl⟩

theorem weave_inv {al : Nat} {vi : VInfo} {tff : Option Bool} {C : Created} (h : doubleWeaveCreate al vi tff = .ok C) :
    InI32 (vi.height * 2) ∧ (0 < vi.width ∧ 0 < vi.height ∧ vi.format.colorFamily ≠ cfUndefined) ∧
    C = .filter (weaveFilter al { vi with height := vi.height * 2 } tff) := by
  unfold doubleWeaveCreate at h
  obtain ⟨x, hx, h⟩ := bind_eq_ok h
  obtain ⟨rfl, hin⟩ := i32_inv hx
  split at h
  · exact absurd h (by simp)
  rename_i h1
  have hc := (const_iff' _).1 (by simpa using h1 : isConstantVideoFormat { vi with height := vi.height * 2 } = true)
  refine ⟨hin, ⟨hc.1, ?_, hc.2.2⟩, (create_eq_ok h).1⟩
  have : 0 < vi.height * 2 := hc.2.1
  omega

/-- C60. Frame `n` of `DoubleWeave` shows the lines of frames `n` and `n + 1` alternately, beginning with those of the top
field. Which one that is comes from the frame properties or else from the argument; without any of them the request fails.
The property `_FieldBased` gives the order of the fields, `_Field` is removed. -/
theorem C60_weave {al : Nat} (ha : AlignOk al) {c : PClip} (hv : ValidClip al c) {tff : Option Bool} {C : Created}
    (hC : doubleWeaveCreate al c.vi tff = .ok C) {n : Nat} {f1 f2 : Frm} (hf1 : at? c n = some f1) (hf2 : at? c (n + 1) = some f2)
    (junk : Junk) :
    (firstTop tff n f1.props f2.props = none → ∃ m, C.frame [c] n junk = .err m) ∧
    ∀ t, firstTop tff n f1.props f2.props = some t → ∃ g, C.frame [c] n junk = .ok g ∧
      Valid al g ∧ g.fmt = f1.fmt ∧ g.width = f1.width ∧ g.height = f1.height * 2 ∧
      g.props.get "_Field" = none ∧ g.props.get "_FieldBased" = one (if t then 2 else 1) ∧
      (∀ k, k ≠ "_Field" → k ≠ "_FieldBased" → g.props.get k = f1.props.get k) ∧
      ∀ p : Nat, (p : Int) < f1.fmt.numPlanes → (img al g p).Same
        (if t then weave (img al f1 p) (img al f2 p) else weave (img al f2 p) (img al f1 p)) := by
  obtain ⟨hin, hcon, rfl⟩ := weave_inv hC
  have hm1 := at_mem hf1
  have hm2 := at_mem hf2
  have v1 := hv.frames f1 hm1
  have v2 := hv.frames f2 hm2
  have k1 := hv.fmt f1 hm1 hcon.2.2
  have k2 := hv.fmt f2 hm2 hcon.2.2
  obtain ⟨s1, t1⟩ := hv.size f1 hm1 (by omega)
  obtain ⟨s2, t2⟩ := hv.size f2 hm2 (by omega)
  have hrd : (weaveFilter al { c.vi with height := c.vi.height * 2 } tff).ready n
      (getFrameFilter [c] ((weaveFilter al { c.vi with height := c.vi.height * 2 } tff).reqs n)) junk =
      weaveFrame al { c.vi with height := c.vi.height * 2 } tff n f1 f2 junk := by
    show (getFrameFilter [c] [(0, n), (0, n + 1)] 0 n >>= fun a => getFrameFilter [c] [(0, n), (0, n + 1)] 0 (n + 1) >>= fun b =>
      weaveFrame al { c.vi with height := c.vi.height * 2 } tff n a b junk) = _
    rw [get_ok (i := 0) rfl hv (by simp) hf1, Res.bind_ok, get_ok (i := 0) rfl hv (by simp) hf2, Res.bind_ok]
  constructor
  · intro ht
    refine ⟨_, frame_err (m := "DoubleWeave: field order could not be determined from frame properties") ?_⟩
    rw [hrd]
    unfold weaveFrame
    rw [pair_eq, ht]
  · intro t ht
    have h2 : c.vi.height * 2 ≤ INT_MAX := hin.2
    have hh : c.vi.height * 2 = ((f1.height * 2 : Nat) : Int) := by rw [← t1]; simp
    have core : ∃ g, (newVideoFrame al c.vi.format c.vi.width (c.vi.height * 2) f1.props junk >>= fun dst =>
        dst.build (weavePlane al (if t then f1 else f2) (if t then f2 else f1) dst)) = .ok g ∧ Valid al g ∧ g.fmt = f1.fmt ∧
        g.width = f1.width ∧ g.height = f1.height * 2 ∧ g.props = f1.props ∧
        ∀ p : Nat, (p : Int) < f1.fmt.numPlanes → (img al g p).Same
          (if t then weave (img al f1 p) (img al f2 p) else weave (img al f2 p) (img al f1 p)) := by
      have e12 : f2.fmt = f1.fmt := by rw [k1, k2]
      have w12 : f2.width = f1.width := by omega
      have h12 : f2.height = f1.height := by omega
      rw [hh, ← s1, ← k1]
      cases t
      · obtain ⟨g, e, q1, q2, q3, q4, q5, q6⟩ := weaveBuild_ok (align_pos ha) v2 v1 e12.symm w12.symm h12.symm
          (by rw [h12]; omega) f1.props junk
        rw [e12, w12, h12] at e
        exact ⟨g, e, q1, q2.trans e12, q3.trans w12, by rw [q4, h12], q5, by rw [e12] at q6; exact q6⟩
      · exact weaveBuild_ok (align_pos ha) v1 v2 e12 w12 h12 (by omega) f1.props junk
    obtain ⟨g, e, q1, q2, q3, q4, q5, q6⟩ := core
    have hw : weaveFrame al { c.vi with height := c.vi.height * 2 } tff n f1 f2 junk =
        .ok { g with props := setInt (g.props.put "_Field" none) "_FieldBased" (if t then 2 else 1) } := by
      unfold weaveFrame
      rw [pair_eq, ht]
      simp only
      rw [← bind_assoc, e, Res.bind_ok]
    refine ⟨_, frame_ok (hrd.trans hw) (fun _ => q2.trans k1) (fun _ => ⟨?_, ?_⟩),
      ⟨q1.fmt, q1.known, q1.width, q1.height, q1.modW, q1.modH, q1.row, q1.rows, q1.count, q1.size⟩, q2, q3, q4, ?_, ?_, ?_, q6⟩
    · show (g.width : Int) = c.vi.width; rw [q3]; exact s1
    · show (g.height : Int) = c.vi.height * 2; rw [q4, hh]
    · show (setInt (g.props.put "_Field" none) "_FieldBased" (if t then 2 else 1)).get "_Field" = none
      unfold setInt
      rw [get_other _ _ (by decide), get_self]
    · show (setInt (g.props.put "_Field" none) "_FieldBased" (if t then 2 else 1)).get "_FieldBased" = _
      unfold setInt
      rw [get_self]
      rfl
    · intro k a1 a2
      show (setInt (g.props.put "_Field" none) "_FieldBased" (if t then 2 else 1)).get k = _
      unfold setInt
      rw [get_other _ _ a2, get_other _ _ a1, q5]

example : (0 < exClip.vi.width ∧ 0 < exClip.vi.height ∧ exClip.vi.format.colorFamily ≠ cfUndefined) ∧ exClip.vi.height * 2 ≤ INT_MAX ∧
    firstTop (some true) 0 (mkFrame 32 yuv420 8 8 exPx Dict.empty).props (mkFrame 32 yuv420 8 8 exPx Dict.empty).props = some true :=
  ⟨by decide, by decide, rfl⟩

/-! ## Both together -/

theorem weave_congr {a a' b b' : Img} (ha : a.Same a') (hb : b.Same b') (hw : a.w = b.w) (hh : a.h = b.h) :
    (weave a b).Same (weave a' b') := by
  refine ⟨ha.1, ?_, ?_⟩
  · show 2 * a.h = 2 * a'.h; rw [ha.2.1]
  · intro x y hx hy
    have hx' : x < a.w := hx
    have hy' : y < 2 * a.h := hy
    show (if y % 2 = 0 then a.px x (y / 2) else b.px x (y / 2)) = if y % 2 = 0 then a'.px x (y / 2) else b'.px x (y / 2)
    split
    · exact ha.2.2 x _ hx' (by omega)
    · exact hb.2.2 x _ (by omega) (by omega)

theorem weave_fields (i : Img) (h : 2 ∣ i.h) : (weave (field true i) (field false i)).Same i := by
  refine ⟨rfl, ?_, ?_⟩
  · show 2 * (i.h / 2) = i.h; omega
  · intro x y _ _
    show (if y % 2 = 0 then i.px x (2 * (y / 2) + 0) else i.px x (2 * (y / 2) + 1)) = i.px x y
    split
    · rw [show 2 * (y / 2) + 0 = y by omega]
    · rw [show 2 * (y / 2) + 1 = y by omega]

/-- A separated field that has been delivered. -/
theorem separated {al : Nat} (ha : AlignOk al) {c : PClip} (hv : ValidClip al c) {tff modify : Option Bool} {C : Created}
    (hC : separateFieldsCreate al c.vi tff modify = .ok C) {n : Nat} {f : Frm} (hf : at? c (n / 2) = some f) {junk : Junk} {g : Frm}
    (hg : C.frame [c] n junk = .ok g) : ∃ t, topFirst tff f.props = some t ∧ Valid al g ∧ g.fmt = f.fmt ∧ g.width = f.width ∧
      g.height = f.height / 2 ∧ propInt g.props "_Field" = some (if isTop n t then 1 else 0) ∧
      ∀ p : Nat, (p : Int) < f.fmt.numPlanes → (img al g p).Same (field (isTop n t) (img al f p)) := by
  obtain ⟨h1, h2⟩ := separate_core ha hv hC hf junk
  rcases ht : topFirst tff f.props with _ | t
  · obtain ⟨m, hm⟩ := h1 ht
    rw [hm] at hg
    exact absurd hg (by simp)
  · obtain ⟨g', g1, g2, g3, g4, g5, g6⟩ := h2 t ht
    rw [g6] at hg
    obtain ⟨e, he, hg⟩ := bind_eq_ok hg
    rw [Res.ok.injEq] at hg
    subst hg
    refine ⟨t, rfl, ⟨g1.fmt, g1.known, g1.width, g1.height, g1.modW, g1.modH, g1.row, g1.rows, g1.count, g1.size⟩, g2, g3, g4, ?_, g5⟩
    have := halve_rest he (k := "_Field") (by decide) (by decide)
    unfold setInt at this
    rw [get_other _ _ (by decide), get_self] at this
    show propInt e "_Field" = _
    unfold propInt
    rw [this]

/-- C60. `DoubleWeave` makes the frames of the clip again from the fields of `SeparateFields`: they are its frames with an even
number. The last of the frames has no field of the other kind to go with: if the order is not given it cannot be made. -/
theorem C60_separate_weave {al : Nat} (ha : AlignOk al) {c : PClip} (hv : ValidClip al c) {tff modify : Option Bool} {C : Created}
    (hC : separateFieldsCreate al c.vi tff modify = .ok C) {d : PClip} (hd : Delivers C [c] d) (tff' : Option Bool) :
    ∃ W, doubleWeaveCreate al d.vi tff' = .ok W ∧
      (∀ (k : Nat) f, (k : Int) < c.vi.numFrames → at? c k = some f → ∀ junk, ∃ t, topFirst tff f.props = some t ∧
        ∃ g, W.frame [d] (2 * k) junk = .ok g ∧ Valid al g ∧ g.fmt = f.fmt ∧ g.width = f.width ∧ g.height = f.height ∧
          g.props.get "_FieldBased" = one (if t then 2 else 1) ∧
          ∀ p : Nat, (p : Int) < f.fmt.numPlanes → (img al g p).Same (img al f p)) ∧
      (tff' = none → ∀ junk, ∃ m, W.frame [d] (2 * c.frames.length - 1) junk = .err m) := by
  obtain ⟨c1, c2, c3, fps, e4, c5⟩ := separate_inv hC
  have hcon := (const_iff' _).1 c1
  have hN := hv.count
  have vd : ValidClip al d := by
    have hd' := hd
    rw [e4] at hd'
    refine delivers_valid hd' c5 c3 ?_
    intro n junk g hg
    obtain ⟨f, hf, _⟩ := at_some hv (n / 2)
    rw [e4] at hC
    obtain ⟨_, _, h, _⟩ := separated ha hv hC hf hg
    exact h
  have ev : { c.vi with numFrames := c.vi.numFrames * 2, height := c.vi.height / 2, fpsNum := fps.1, fpsDen := fps.2 } = d.vi := by
    have := hd.vi
    rw [e4] at this
    exact Option.some.inj this
  have ef : d.vi.format = c.vi.format := by rw [← ev]
  have ew : d.vi.width = c.vi.width := by rw [← ev]
  have eh : d.vi.height = c.vi.height / 2 := by rw [← ev]
  have en : d.vi.numFrames = c.vi.numFrames * 2 := by rw [← ev]
  have heven : ∀ f ∈ c.frames, 2 ^ (f.fmt.subSamplingH.toNat + 1) ∣ f.height := by
    intro f hm
    rw [hv.fmt f hm hcon.2.2, ← mod_dvd, (hv.size f hm (by omega)).2]; exact c2
  have h2 : 2 ∣ c.vi.height := by
    have : (2 : Int) ^ (c.vi.format.subSamplingH.toNat + 1) ∣ c.vi.height := Int.dvd_of_emod_eq_zero c2
    exact Int.dvd_trans (by rw [Int.pow_succ]; exact Int.dvd_mul_left _ _) this
  have hbig := (clip_size hv ⟨hcon.1, hcon.2.1⟩).2
  obtain ⟨W, hW, _⟩ := (C60_weave_accepts vd tff' (by rw [eh]; omega)).1 (by rw [ew, eh, ef]; exact ⟨hcon.1, by omega, hcon.2.2⟩)
  have fld : ∀ (n : Nat) f, (n : Int) < c.vi.numFrames * 2 → at? c (n / 2) = some f → ∃ g, at? d n = some g ∧
      ∃ t, topFirst tff f.props = some t ∧ Valid al g ∧ g.fmt = f.fmt ∧ g.width = f.width ∧
      g.height = f.height / 2 ∧ propInt g.props "_Field" = some (if isTop n t then 1 else 0) ∧
      ∀ p : Nat, (p : Int) < f.fmt.numPlanes → (img al g p).Same (field (isTop n t) (img al f p)) := by
    intro n f hn hf
    obtain ⟨g, hg, _⟩ := at_some vd n
    obtain ⟨junk, hj⟩ := delivers_at hd vd (by rw [en]; exact hn) hg
    exact ⟨g, hg, separated ha hv hC hf hj⟩
  refine ⟨W, hW, ?_, ?_⟩
  · intro k f hk hf junk
    obtain ⟨g1, a1, t, a2, a3, a4, a5, a6, a7, a8⟩ := fld (2 * k) f (by omega) (by rw [show 2 * k / 2 = k by omega]; exact hf)
    obtain ⟨g2, b1, t', b2, b3, b4, b5, b6, b7, b8⟩ := fld (2 * k + 1) f (by omega) (by rw [show (2 * k + 1) / 2 = k by omega]; exact hf)
    have ett : t = t' := by rw [a2] at b2; exact Option.some.inj b2
    subst ett
    rw [show isTop (2 * k) t = t by unfold isTop; rw [if_pos (by omega)]] at a7 a8
    rw [show isTop (2 * k + 1) t = !t by unfold isTop; rw [if_neg (by omega)]] at b7 b8
    have hm := at_mem hf
    have vf := hv.frames f hm
    have hp : firstTop tff' (2 * k) g1.props g2.props = some t := by
      unfold firstTop
      rw [a7, b7]
      cases t <;> rfl
    obtain ⟨g, w1, w2, w3, w4, w5, w6, w7, w8, w9⟩ := (C60_weave ha vd hW a1 b1 junk).2 t hp
    have hev := heven f hm
    have h2f : 2 ∣ f.height := by
      refine Nat.dvd_trans ?_ hev
      rw [Nat.pow_succ]; exact Nat.dvd_mul_left _ _
    refine ⟨t, a2, g, w1, w2, w3.trans a4, w4.trans a5, by rw [w5, a6]; omega, w7, ?_⟩
    intro p hpp
    have w9' := w9 p (by rw [a4]; exact hpp)
    have a8' := a8 p hpp
    have b8' := b8 p hpp
    have ih : 2 ∣ (img al f p).h := (half_div hev (ssh_le f.fmt p)).2
    refine Same.trans w9' (Same.trans ?_ (weave_fields (img al f p) ih))
    have d1 : (img al g1 p).w = (img al g2 p).w := a8'.1.trans b8'.1.symm
    have d2 : (img al g1 p).h = (img al g2 p).h := a8'.2.1.trans b8'.2.1.symm
    cases t
    · exact weave_congr b8' a8' d1.symm d2.symm
    · exact weave_congr a8' b8' d1 d2
  · intro ht' junk
    subst ht'
    have hpos := hv.pos
    obtain ⟨f, hf, hm⟩ := at_some hv ((2 * c.frames.length - 1) / 2)
    obtain ⟨g, a1, t, _, _, _, _, _, a7, _⟩ := fld (2 * c.frames.length - 1) f (by omega) hf
    have hl : at? d (2 * c.frames.length - 1 + 1) = some g := by
      unfold at? at a1 ⊢
      have := vd.count
      rw [show min (2 * c.frames.length - 1 + 1) (d.frames.length - 1) = min (2 * c.frames.length - 1) (d.frames.length - 1) by omega]
      exact a1
    refine (C60_weave ha vd hW a1 hl junk).1 ?_
    unfold firstTop
    rw [a7]
    cases isTop (2 * c.frames.length - 1) t <;> rfl

/-- There is such a clip. -/
example : ∃ C d, separateFieldsCreate 32 exClip.vi (some true) none = .ok C ∧ Delivers C [exClip] d := by
  obtain ⟨C, vi, h1, h2, h3, _⟩ := (C60_separate_accepts (al := 32) exClip_valid (some true) none (by decide)).1
    ⟨by decide, by decide, by decide⟩
  obtain ⟨d, hd⟩ := exists_delivers (c := C) (clips := [exClip]) h2 (by rw [h3]; decide) (fun n => by
    obtain ⟨f, hf, hm⟩ := at_some exClip_valid (n / 2)
    have hp : f.props = Dict.empty := by
      rcases List.mem_cons.1 hm with rfl | hm
      · rfl
      · rw [List.mem_singleton.1 hm]; rfl
    obtain ⟨g, q, _⟩ := (C60_separate (Or.inl rfl) exClip_valid h1 hf (fun _ _ => 0)).2 true (by rw [hp]; rfl)
      (fun _ a b h => by rw [hp] at h; exact absurd h (by simp [propInt, Dict.empty]))
    exact ⟨g, q⟩)
  exact ⟨C, d, h1, hd⟩

/-! ## What goes wrong -/

/-- C60 is violated if the double height does not fit into an `int`: instead of an error there is a signed overflow. -/
theorem C60_weave_overflow_refuted : ValidClip 32 tallClip ∧ doubleWeaveCreate 32 tallClip.vi none = .ub := ⟨tallClip_valid, rfl⟩

/-- A clip with a very high frame rate, or with a very short frame. -/
def fastClip (rate : Int) (props : Dict) : PClip := ⟨⟨yuv420, rate, 1, 8, 8, 1⟩, [mkFrame 32 yuv420 8 8 exPx props]⟩

theorem fastClip_valid {rate : Int} (h : 0 ≤ rate) (h2 : rate ≤ INT64_MAX) (props : Dict) : ValidClip 32 (fastClip rate props) := by
  refine ⟨(info_iff _).2 ?_, rfl, (by decide : (1 : Int) ≤ INT_MAX), ?_, ?_, ?_⟩
  · have := (info_iff _).1 exClip_valid.info
    refine ⟨this.1, (by decide : (0 : Int) ≤ 1), h, (by decide : (0 : Int) ≤ 8), (by decide : (0 : Int) ≤ 8), (by decide : (1 : Int) ≤ 1), ?_, Iff.rfl⟩
    show reduceRational rate 1 = .ok (rate, 1)
    have := C22_reduceRational rate 1 (by decide) (by unfold Fits INT64_MIN; unfold INT64_MAX at *; omega) (by decide)
    have e : (rate : Rat) / ((1 : Int) : Rat) = rate := by
      rw [show ((1 : Int) : Rat) = 1 from rfl, Rat.div_def, show (1 : Rat)⁻¹ = 1 by decide +kernel, Rat.mul_one]
    simp only [e, show Int.sign 1 = 1 from rfl, Int.one_mul] at this
    rw [this]
    simp
  · intro f hf
    rw [List.mem_singleton.1 hf]
    exact mkFrame_valid yuv_geo _ _
  · intro f hf _
    rw [List.mem_singleton.1 hf]; rfl
  · intro f hf _
    rw [List.mem_singleton.1 hf]; exact ⟨rfl, rfl⟩

/-- C60 is violated if the double frame rate does not fit into 64 bits. -/
theorem C60_rate_refuted : ValidClip 32 (fastClip (2 ^ 62) Dict.empty) ∧
    separateFieldsCreate 32 (fastClip (2 ^ 62) Dict.empty).vi (some true) none = .ub :=
  ⟨fastClip_valid (by decide) (by decide) _, rfl⟩

/-- The properties of a very short frame. -/
def shortProps : Dict := setInt (setInt Dict.empty "_DurationNum" 1) "_DurationDen" (2 ^ 62)

/-- C60 is violated if half the duration cannot be computed with 64 bits. -/
theorem C60_duration_refuted : ValidClip 32 (fastClip 25 shortProps) ∧
    ∃ C, separateFieldsCreate 32 (fastClip 25 shortProps).vi (some true) none = .ok C ∧
      C.frame [fastClip 25 shortProps] 0 (fun _ _ => 0) = .ub := by
  have hv : ValidClip 32 (fastClip 25 shortProps) := fastClip_valid (by decide) (by decide) _
  obtain ⟨C, vi, h1, _⟩ := (C60_separate_accepts (al := 32) hv (some true) none (by decide)).1 ⟨by decide, by decide, by decide⟩
  refine ⟨hv, C, h1, ?_⟩
  obtain ⟨g, _, _, _, _, _, q⟩ := (separate_core (Or.inl rfl) hv h1 (n := 0) (f := mkFrame 32 yuv420 8 8 exPx shortProps) rfl (fun _ _ => 0)).2
    true rfl
  rw [q]
  rfl

end VS.Pix
