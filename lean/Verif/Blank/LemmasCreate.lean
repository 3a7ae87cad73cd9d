import Verif.Blank.Lemmas
import Verif.Point.LemmasClip

/-! # What the create function of BlankClip finds -/

namespace VS.Blank
open VS VS.Format VS.Map VS.Map.Spec VS.Pix VS.Pix.Spec VS.Gain VS.Half.Spec VS.Blank.Spec

/-! ## Frame rate -/

theorem reduce_zero : reduceRational 0 0 = .ok (0, 0) := C22_zero_den 0 1 1

theorem reduce_pos {n d : Int} (hn : 0 < n) (hd : 0 < d) (h1 : n ≤ INT64_MAX) (h2 : d ≤ INT64_MAX) :
    reduceRational n d = .ok (((n : Rat) / d).num, (((n : Rat) / d).den : Int)) := by
  have := C22_reduceRational n d (by omega) ⟨by unfold INT64_MIN; omega, h1⟩ ⟨by unfold INT64_MIN; omega, h2⟩
  simp only at this
  rw [this, Int.sign_eq_one_of_pos hd, Int.one_mul, Int.one_mul]

/-- A fraction in lowest terms is not larger than before. -/
theorem lowest {n d : Int} (hn : 0 < n) (hd : 0 < d) :
    0 < ((n : Rat) / d).num ∧ ((n : Rat) / d).num ≤ n ∧ 0 < (((n : Rat) / d).den : Int) ∧ (((n : Rat) / d).den : Int) ≤ d := by
  have hp : (0 : Rat) < (n : Rat) / d := div_pos (by exact_mod_cast hn) (by exact_mod_cast hd)
  refine ⟨Rat.num_pos.2 hp, ?_, by have := ((n : Rat) / d).den_pos; omega, ?_⟩
  · have h := Rat.num_dvd n (b := d) (by omega)
    rw [Rat.divInt_eq_div] at h
    exact Int.le_of_dvd hn h
  · have h := Rat.den_dvd n d
    rw [Rat.divInt_eq_div] at h
    exact Int.le_of_dvd hd h

/-- Reducing again changes nothing. -/
theorem reduce_again {n d : Int} (hn : 0 < n) (hd : 0 < d) (h1 : n ≤ INT64_MAX) (h2 : d ≤ INT64_MAX) :
    reduceRational ((n : Rat) / d).num (((n : Rat) / d).den : Int) = .ok (((n : Rat) / d).num, (((n : Rat) / d).den : Int)) := by
  obtain ⟨l1, l2, l3, l4⟩ := lowest hn hd
  rw [reduce_pos l1 l3 (by omega) (by omega)]
  have : ((((n : Rat) / d).num : Rat) / ((((n : Rat) / d).den : Int) : Rat)) = (n : Rat) / d := by
    rw [Int.cast_natCast]
    exact Rat.num_div_den _
  rw [this]

theorem ask_bounds {a : Args} (h : ArgsOk a) : askNum a ≤ INT64_MAX ∧ askDen a ≤ INT64_MAX := by
  unfold askNum askDen choice
  constructor
  · rcases e : a.fpsnum with _ | i
    · rcases e2 : a.clip with _ | vi
      · simp [INT64_MAX]
      · simpa using (h.clip vi e2).2.1
    · simpa using (h.num i e).2
  · rcases e : a.fpsden with _ | i
    · rcases e2 : a.clip with _ | vi
      · simp [INT64_MAX]
      · simpa using (h.clip vi e2).2.2.1
    · simpa using (h.den i e).2

theorem fps_ok {a : Args} (h : ArgsOk a) (hr : 0 ≤ askNum a ∧ 0 ≤ askDen a) : blankFps (askNum a) (askDen a) = .ok (fps a) := by
  obtain ⟨b1, b2⟩ := ask_bounds h
  unfold blankFps fps
  rw [if_neg (by omega)]
  by_cases hz : askNum a = 0 ∨ askDen a = 0
  · rw [if_pos hz, if_pos (by omega)]
    exact reduce_zero
  · rw [if_neg hz, if_neg (by omega)]
    exact reduce_pos (by omega) (by omega) b1 b2

theorem fps_bad {a : Args} (h : askNum a < 0 ∨ askDen a < 0) : ∃ m, blankFps (askNum a) (askDen a) = .err m := by
  unfold blankFps
  rw [if_pos (by omega)]
  exact ⟨_, rfl⟩

theorem fps_good {a : Args} (h : ArgsOk a) (hr : 0 ≤ askNum a ∧ 0 ≤ askDen a) :
    0 ≤ (fps a).1 ∧ 0 ≤ (fps a).2 ∧ reduceRational (fps a).1 (fps a).2 = .ok (fps a) := by
  obtain ⟨b1, b2⟩ := ask_bounds h
  unfold fps
  by_cases hz : askNum a = 0 ∨ askDen a = 0
  · rw [if_pos hz]
    exact ⟨le_refl _, le_refl _, reduce_zero⟩
  · rw [if_neg hz]
    have hn : 0 < askNum a := by omega
    have hd : 0 < askDen a := by omega
    obtain ⟨l1, l2, l3, l4⟩ := lowest hn hd
    exact ⟨le_of_lt l1, le_of_lt l3, reduce_again hn hd b1 b2⟩

/-! ## Length -/

theorem floor_div {x : Int} {d : Int} (hd : 0 < d) : ((x : Rat) / (d : Rat)).floor = x / d := by
  have hd' : (0 : Rat) < (d : Rat) := by exact_mod_cast hd
  apply le_antisymm
  · rw [Int.le_ediv_iff_mul_le hd]
    have := Rat.floor_le ((x : Rat) / (d : Rat))
    rw [le_div_iff₀ hd'] at this
    exact_mod_cast this
  · rw [Rat.le_floor_iff, le_div_iff₀ hd']
    have : x / d * d ≤ x := Int.ediv_mul_le x (by omega)
    exact_mod_cast this

theorem length_ok (r : Reg) {a : Args} (hr : 0 ≤ askNum a ∧ 0 ≤ askDen a) :
    (LengthOk a → blankLength a (fps a).1 (fps a).2 = .ok (wanted r a).numFrames) ∧
    (¬ LengthOk a → blankLength a (fps a).1 (fps a).2 = .ub) := by
  unfold blankLength wanted LengthOk choice
  rcases e : a.length with _ | i
  · rcases e2 : a.clip with _ | vi
    · simp only [Option.map_none, Option.or_none, Option.getD_none, forall_const]
      unfold tenSeconds
      by_cases hz : askNum a = 0 ∨ askDen a = 0
      · have hf : fps a = (0, 0) := if_pos hz
        rw [hf, if_pos hz]
        simp [INT64_MAX]
      · rw [if_neg hz]
        have hf : fps a = (((askNum a : Rat) / askDen a).num, (((askNum a : Rat) / askDen a).den : Int)) := if_neg hz
        obtain ⟨l1, l2, l3, l4⟩ := lowest (show 0 < askNum a by omega) (show 0 < askDen a by omega)
        rw [hf]
        simp only
        rw [if_pos ⟨l1, l3⟩]
        constructor
        · intro hle
          rw [i64_ok ⟨by unfold INT64_MIN; omega, by omega⟩, Res.bind_ok, toInt_eq]
          congr 2
          rw [Int.tdiv_eq_ediv_of_nonneg (by omega)]
          rw [← floor_div l3]
          congr 1
          push_cast
          rw [mul_comm, mul_div_assoc, mul_comm]
          rw [show ((((askNum a : Rat) / askDen a).num : Int) : Rat) / ((((askNum a : Rat) / askDen a).den : Nat) : Rat) =
            (askNum a : Rat) / askDen a from Rat.num_div_den _] <;> ring_nf
        · intro hle
          rw [i64_ub (fun h => hle (by have := h.2; omega)), Res.bind_ub]
    · simp
  · simp [toInt_eq]

/-! ## Format -/

theorem blankFormat_eq (r : Reg) (a : Args) :
    blankFormat r a = if (format r a).colorFamily = cfUndefined then .err "BlankClip: invalid format" else .ok (format r a) := by
  unfold blankFormat format
  rcases a.format with _ | i
  · rcases a.clip with _ | vi
    · simp only
      have : (queryVideoFormat cfRGB stInteger 8 0 0).2 = ⟨cfRGB, stInteger, 8, 1, 0, 0, 3⟩ := by decide
      rw [this]
    · rfl
  · simp only [toInt_eq]

theorem byID_valid (r : Reg) (id : Nat) (h : (getVideoFormatByID r id).2.colorFamily ≠ cfUndefined) :
    isValidVideoStruct (getVideoFormatByID r id).2 = true := by
  unfold getVideoFormatByID at *
  split at h
  · rename_i h1
    rw [if_pos h1]
    unfold videoFormatFromV3 at *
    split at h
    · exact (query_ok h).1
    · rename_i f hf
      split at h
      · rename_i h2
        rw [if_pos h2]
        exact (query_ok h).1
      · rename_i h2
        rw [if_neg h2]
        exact (query_ok h).1
  · rename_i h1
    rw [if_neg h1]
    exact (query_ok h).1

theorem format_valid (r : Reg) {a : Args} (ha : ArgsOk a) (h : (format r a).colorFamily ≠ cfUndefined) :
    isValidVideoStruct (format r a) = true := by
  unfold format at *
  rcases e : a.format with _ | i
  · rcases e2 : a.clip with _ | vi
    · show isValidVideoStruct ⟨cfRGB, stInteger, 8, 1, 0, 0, 3⟩ = true
      decide
    · exact ((info_iff vi).1 (ha.clip vi e2).1).1
  · rw [e] at h
    exact byID_valid r _ h

theorem bits_range {f : VFmt} (h : isValidVideoStruct f = true) (hk : f.colorFamily ≠ cfUndefined) :
    8 ≤ f.bitsPerSample ∧ f.bitsPerSample ≤ 32 := by
  have g := VS.Point.good_of h hk
  have := g.1
  unfold Documented at this
  omega

/-! ## All together -/

theorem declared_valid (r : Reg) {a : Args} (ha : ArgsOk a) (hr : 0 ≤ askNum a ∧ 0 ≤ askDen a)
    (hk : (format r a).colorFamily ≠ cfUndefined) (hw : 0 < (wanted r a).width) (hh : 0 < (wanted r a).height)
    (hn : 1 ≤ (wanted r a).numFrames) : isValidVideoInfo (declared r a) = .ok true := by
  obtain ⟨f1, f2, f3⟩ := fps_good ha hr
  rw [info_iff]
  refine ⟨?_, f2, f1, ?_, ?_, hn, f3, ?_⟩
  · unfold declared
    simp only
    split
    · exact format_valid r ha hk
    · decide
  · unfold declared
    simp only
    split <;> omega
  · unfold declared
    simp only
    split <;> omega
  · unfold declared
    simp only
    split <;> omega

theorem delivered_eq (r : Reg) (a : Args) : deliveredInfo (wanted r a) a.varsize a.varformat = declared r a := by
  unfold deliveredInfo declared
  by_cases h1 : a.varsize.getD 0 = 0 <;> by_cases h2 : a.varformat.getD 0 = 0 <;> simp [h1, h2, VFmt.zero]

theorem create_eq (F : DFloats) (C : ToFloat) (r : Reg) {a : Args} (ha : ArgsOk a) (hr : 0 ≤ askNum a ∧ 0 ≤ askDen a)
    (hk : (format r a).colorFamily ≠ cfUndefined) :
    blankClipCreate F C r a = blankFinish F C a (wanted r a).width (wanted r a).height (fps a).1 (fps a).2 (format r a) := by
  unfold blankClipCreate
  have e1 : pick a.fpsnum (a.clip.map (·.fpsNum)) 24 = askNum a := pick_eq _ _ _
  have e2 : pick a.fpsden (a.clip.map (·.fpsDen)) 1 = askDen a := pick_eq _ _ _
  have e3 : pick (a.width.map int64ToIntS) (a.clip.map (·.width)) 640 = (wanted r a).width := by
    rw [pick_eq, show int64ToIntS = toInt from funext toInt_eq]; rfl
  have e4 : pick (a.height.map int64ToIntS) (a.clip.map (·.height)) 480 = (wanted r a).height := by
    rw [pick_eq, show int64ToIntS = toInt from funext toInt_eq]; rfl
  simp only
  rw [e1, e2, e3, e4, fps_ok ha hr, Res.bind_ok, blankFormat_eq, if_neg hk, Res.bind_ok]

theorem color_cases (F : DFloats) (C : ToFloat) (hC : ∀ v, single.Bits (C v)) {f : VFmt} (hv : isValidVideoStruct f = true)
    (hk : f.colorFamily ≠ cfUndefined) (l : List Dbl) :
    (∃ m, blankColor F C f l = .err m ∧ ¬ (l = [] ∨ ((l.length : Int) = f.numPlanes ∧ ∀ v ∈ l, HasSample C f v))) ∨
    (∃ c, blankColor F C f l = .ok c ∧ (∀ p : Nat, (p : Int) < f.numPlanes → Fills C f l p (c p)) ∧
      ¬ (l ≠ [] ∧ (l.length : Int) ≠ f.numPlanes) ∧ ∀ v ∈ l, ¬ NoSample C f v) := by
  obtain ⟨b1, b2⟩ := bits_range hv hk
  have hnp := (fmtOk hv hk).planes
  unfold blankColor
  by_cases hl : (l.length : Int) = f.numPlanes
  · rw [if_pos hl]
    rcases colorLoop_ok F C hC b2 l with ⟨m, e, v, hvm, hn⟩ | ⟨cs, e, hcl, hs, hg⟩
    · left
      rw [e]
      refine ⟨m, rfl, ?_⟩
      rintro (h | ⟨_, h⟩)
      · rw [h] at hvm; simp at hvm
      · exact hn (h v hvm)
    · right
      rw [e]
      refine ⟨_, rfl, ?_, fun h => h.2 hl, hg⟩
      intro p hp
      unfold Fills
      have hpl : p < l.length := by omega
      rw [List.getElem?_eq_getElem hpl]
      exact hs p _ (List.getElem?_eq_getElem hpl)
  · rw [if_neg hl]
    by_cases h0 : l.length > 0
    · left
      rw [if_pos h0]
      refine ⟨_, rfl, ?_⟩
      rintro (h | h)
      · rw [h] at h0; simp at h0
      · exact hl h.1
    · right
      rw [if_neg h0]
      have hnil : l = [] := List.length_eq_zero_iff.1 (by omega)
      subst hnil
      refine ⟨_, rfl, ?_, fun h => h.1 rfl, fun v hv => by simp at hv⟩
      intro p hp
      unfold Fills
      rw [List.getElem?_nil]
      exact black_eq p (by omega) b1

theorem emod_dvd {x : Int} {n : Nat} : x % 2 ^ n ≠ 0 ↔ ¬ ((2 ^ n : Int) ∣ x) := by
  rw [Int.dvd_iff_emod_eq_zero]

/-- The end of the create function. -/
theorem finish_cases (F : DFloats) (C : ToFloat) (hC : ∀ v, single.Bits (C v)) (r : Reg) {a : Args} (ha : ArgsOk a)
    (hr : 0 ≤ askNum a ∧ 0 ≤ askDen a) (hk : (format r a).colorFamily ≠ cfUndefined) (hl : LengthOk a) :
    (∃ m, blankClipCreate F C r a = .err m ∧ ¬ Possible C r a) ∨
    (∃ c, blankClipCreate F C r a = .ok ⟨declared r a, ⟨wanted r a, c, a.keep.getD 0 != 0⟩⟩ ∧ ¬ Impossible C r a ∧
      isValidVideoInfo (declared r a) = .ok true ∧
      (∀ p : Nat, (p : Int) < (format r a).numPlanes → Fills C (format r a) a.color p (c p))) := by
  rw [create_eq F C r ha hr hk]
  unfold blankFinish
  rw [(length_ok r hr).1 hl, Res.bind_ok]
  by_cases h1 : (wanted r a).width ≤ 0 ∨ (wanted r a).width % 2 ^ (format r a).subSamplingW.toNat ≠ 0
  · left
    rw [if_pos h1]
    refine ⟨_, rfl, fun p => ?_⟩
    rw [emod_dvd] at h1
    rcases h1 with h | h
    · have := p.width.1; omega
    · exact h p.width.2
  rw [if_neg h1]
  by_cases h2 : (wanted r a).height ≤ 0 ∨ (wanted r a).height % 2 ^ (format r a).subSamplingH.toNat ≠ 0
  · left
    rw [if_pos h2]
    refine ⟨_, rfl, fun p => ?_⟩
    rw [emod_dvd] at h2
    rcases h2 with h | h
    · have := p.height.1; omega
    · exact h p.height.2
  rw [if_neg h2]
  by_cases h3 : (wanted r a).numFrames ≤ 0
  · left
    rw [if_pos h3]
    exact ⟨_, rfl, fun p => by have := p.length; omega⟩
  rw [if_neg h3]
  have hfv := format_valid r ha hk
  rcases color_cases F C hC hfv hk a.color with ⟨m, e, hn⟩ | ⟨c, e, hf, hn1, hn2⟩
  · left
    rw [e]
    exact ⟨m, rfl, fun p => hn p.color⟩
  · right
    rw [e, Res.bind_ok]
    simp only
    rw [emod_dvd] at h1 h2
    have hdv := declared_valid r ha hr hk (by omega) (by omega) (by omega)
    refine ⟨c, ?_, ?_, hdv, hf⟩
    · have hw : (⟨format r a, (fps a).1, (fps a).2, (wanted r a).width, (wanted r a).height, (wanted r a).numFrames⟩ : VInfo) = wanted r a := rfl
      rw [hw, delivered_eq]
      unfold blankMake
      simp only
      rw [hdv]
      rfl
    · intro i
      cases i with
      | rate h => omega
      | unknown h => exact hk h
      | width h => exact h1 h
      | height h => exact h2 h
      | length h => exact h3 h
      | count h => exact hn1 h
      | color h =>
        obtain ⟨v, hv, hb⟩ := h
        exact hn2 v hv hb

end VS.Blank
