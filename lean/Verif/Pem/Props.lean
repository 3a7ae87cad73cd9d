import Verif.Pem.Lemmas
import Verif.Stats.Props
import Verif.Merge.PropsMasked

/-! # PEMVerifier lets only legal pictures through -/

namespace VS.Pem
open VS VS.Format VS.Map VS.Map.Spec VS.Pix VS.Pix.Spec VS.Point VS.Point.Spec VS.Gain VS.Generic.Spec VS.Pem.Spec
open VS.Generic (not_workable dot gray8_44 gray8_work roundAway_spec)

variable (F : PFloats)

/-! ## Bounds -/

theorem rounds_low {q : Rat} {z : Int} (h : RoundsTo q z) : (z : Rat) - 1 / 2 ≤ q ∧ q ≤ z + 1 / 2 := by
  have := VS.Pixel.rabs_le.1 h.1
  constructor <;> grind

theorem toInt_small {q : Rat} {z : Int} (h : RoundsTo q z) (h0 : 0 ≤ z) (h1 : z < 2 ^ 16) : Average.floatToIntS q = z := by
  obtain ⟨a, b⟩ := rounds_low h
  have e0 : ((0 : Int) : Rat) ≤ z := Rat.intCast_le_intCast.2 h0
  have e1 : (z : Rat) ≤ ((65536 : Int) : Rat) := Rat.intCast_le_intCast.2 (by omega)
  have c0 : ((0 : Int) : Rat) = 0 := rfl
  have c1 : ((65536 : Int) : Rat) = 65536 := rfl
  unfold Average.floatToIntS
  rw [if_neg (by grind), if_neg (by grind), VS.Levels.rounds_unique (roundAway_spec q) h]
  unfold Average.wrap32
  omega

theorem toInt_bad {q : Rat} {z : Int} (h : RoundsTo q z) {top : Int} (ht : top ≤ 2 ^ 16) (hz : z < 0 ∨ top ≤ z) :
    Average.floatToIntS q < 0 ∨ top ≤ Average.floatToIntS q := by
  obtain ⟨a, b⟩ := rounds_low h
  unfold Average.floatToIntS
  by_cases h1 : q > 2 ^ 31
  · rw [if_pos h1]
    omega
  by_cases h2 : q < -2 ^ 31
  · rw [if_neg h1, if_pos h2]
    omega
  rw [if_neg h1, if_neg h2, VS.Levels.rounds_unique (roundAway_spec q) h]
  have c1 : ((2 ^ 31 : Int) : Rat) = 2 ^ 31 := by norm_num
  have hi : z ≤ 2 ^ 31 := by
    by_contra hc
    have : ((2 ^ 31 + 1 : Int) : Rat) ≤ z := Rat.intCast_le_intCast.2 (by omega)
    push_cast at this
    grind
  have lo : -2 ^ 31 ≤ z := by
    by_contra hc
    have : (z : Rat) ≤ ((-2 ^ 31 - 1 : Int) : Rat) := Rat.intCast_le_intCast.2 (by omega)
    push_cast at this
    grind
  unfold Average.wrap32
  omega

theorem lowerLoop_eq {f : VFmt} {bad : Int → Bool} (h : ∀ i, badLower f i = .ok (bad i)) : ∀ l : List Dbl,
    lowerLoop F f l = if l.any (fun v => bad (toIntS F (F.single v))) then .err "PEMVerifier: Invalid lower bound given"
      else .ok (l.map fun v => (toIntS F (F.single v), F.single v))
  | [] => rfl
  | v :: t => by
    unfold lowerLoop
    rw [h, Res.bind_ok, lowerLoop_eq h t, List.any_cons]
    cases bad (toIntS F (F.single v)) with
    | true => rfl
    | false =>
      rw [Bool.false_or, if_neg (by decide)]
      split <;> rfl

theorem upperLoop_eq {f : VFmt} {bad : Int → Dbl → Int × Dbl → Bool} (h : ∀ i x lo, badUpper f i x lo = .ok (bad i x lo)) :
    ∀ l : List (Dbl × Int × Dbl),
    upperLoop F f l = if l.any (fun v => bad (toIntS F (F.single v.1)) (F.single v.1) v.2) then .err "PEMVerifier: Invalid upper bound given"
      else .ok (l.map fun v => (toIntS F (F.single v.1), F.single v.1))
  | [] => rfl
  | (v, lo) :: t => by
    unfold upperLoop
    rw [h, Res.bind_ok, upperLoop_eq h t, List.any_cons]
    dsimp only
    cases bad (toIntS F (F.single v)) (F.single v) lo with
    | true => rfl
    | false =>
      rw [Bool.false_or, if_neg (by decide)]
      split <;> rfl

theorem shl1_ok {b : Int} (h0 : 0 ≤ b) (h1 : b ≤ 16) : shl1 b = .ok (2 ^ b.toNat) := if_pos (by omega)

theorem lower_int {f : VFmt} (ht : f.sampleType = stInteger) (h0 : 0 ≤ f.bitsPerSample) (h1 : f.bitsPerSample ≤ 16) (i : Int) :
    badLower f i = .ok (decide (i < 0 ∨ i ≥ 2 ^ f.bitsPerSample.toNat)) := by
  unfold badLower
  rw [if_pos ht, shl1_ok h0 h1, Res.bind_ok]

theorem upper_int {f : VFmt} (ht : f.sampleType = stInteger) (h0 : 0 ≤ f.bitsPerSample) (h1 : f.bitsPerSample ≤ 16) (i : Int) (x : Dbl)
    (lo : Int × Dbl) : badUpper f i x lo = .ok (decide (i < lo.1 ∨ i ≥ 2 ^ f.bitsPerSample.toNat)) := by
  unfold badUpper
  rw [if_pos ht, shl1_ok h0 h1, Res.bind_ok]

theorem lower_float {f : VFmt} (ht : f.sampleType = stFloat) (i : Int) : badLower f i = .ok false := by
  unfold badLower
  rw [if_neg (by rw [ht]; decide)]

theorem upper_float {f : VFmt} (ht : f.sampleType = stFloat) (i : Int) (x : Dbl) (lo : Int × Dbl) : badUpper f i x lo = .ok (lt x lo.2) := by
  unfold badUpper
  rw [if_neg (by rw [ht]; decide)]

theorem bits_range {al : Nat} {c : PClip} (hv : ValidClip al c) (hw : Workable c.vi.format) :
    isValidVideoStruct c.vi.format = true ∧ (c.vi.format.sampleType = stInteger ∨ c.vi.format.sampleType = stFloat) ∧
      8 ≤ c.vi.format.bitsPerSample ∧ (c.vi.format.sampleType = stInteger → c.vi.format.bitsPerSample ≤ 16) := by
  obtain ⟨f, _, hm⟩ := at_some hv 0
  have hs := (hv.frames f hm).fmt
  rw [hv.fmt f hm hw.1] at hs
  obtain ⟨k, _, _, hk⟩ := sizeKind_eq hs hw
  refine ⟨hs, ?_⟩
  unfold KindOk at hk
  cases k <;> dsimp only at hk
  · exact ⟨Or.inl hk.1, by omega, fun _ => by omega⟩
  · exact ⟨Or.inl hk.1, by omega, fun _ => by omega⟩
  · exact ⟨Or.inr hk.1, by omega, fun h => by rw [hk.1] at h; cases h⟩
  · exact ⟨Or.inr hk.1, by omega, fun h => by rw [hk.1] at h; cases h⟩

theorem mem_zip_get {α β : Type} {l : List α} {m : List β} {v : α × β} (h : v ∈ l.zip m) : ∃ p : Nat, l[p]? = some v.1 ∧ m[p]? = some v.2 := by
  obtain ⟨p, hp⟩ := List.mem_iff_getElem?.1 h
  have := List.getElem?_zip_eq_some.1 hp
  exact ⟨p, this.1, this.2⟩

/-- The lists of bounds for an integer clip. -/
theorem int_bounds {f : VFmt} (ht : f.sampleType = stInteger) (h0 : 0 ≤ f.bitsPerSample) (h1 : f.bitsPerSample ≤ 16) {lower upper : Option (List Dbl)}
    {lo hi : Nat → Int} (hl : IntBounds F f lower 0 lo) (hu : IntBounds F f upper (2 ^ f.bitsPerSample.toNat - 1) hi)
    (ho : ∀ p : Nat, (p : Int) < f.numPlanes → 0 ≤ lo p ∧ lo p ≤ hi p ∧ hi p < 2 ^ f.bitsPerSample.toNat) :
    ∃ L U, lowers F f lower = .ok L ∧ uppers F f L upper = .ok U ∧
      ∀ p : Nat, (p : Int) < f.numPlanes → (boundsOf L U p).lower = lo p ∧ (boundsOf L U p).upper = hi p := by
  have top : (2 : Int) ^ f.bitsPerSample.toNat ≤ 2 ^ 16 := by
    have : 2 ^ f.bitsPerSample.toNat ≤ 2 ^ 16 := Nat.pow_le_pow_right (by decide) (by omega)
    exact_mod_cast this
  have low : ∃ L, lowers F f lower = .ok L ∧ L.length = f.numPlanes.toNat ∧ ∀ p x, L[p]? = some x → x.1 = lo p := by
    rcases hl with ⟨rfl, h⟩ | ⟨l, rfl, hn, h⟩
    · refine ⟨_, rfl, by simp, ?_⟩
      intro p x hx
      rw [List.getElem?_map] at hx
      obtain ⟨i, _, rfl⟩ := Option.map_eq_some_iff.1 hx
      exact (h p).symm
    · have val : ∀ p v, l[p]? = some v → toIntS F (F.single v) = lo p := by
        intro p v hv
        have hp : p < l.length := (List.getElem?_eq_some_iff.1 hv).1
        obtain ⟨q, e, hr⟩ := h p v hv
        have := ho p (by omega)
        rw [e]
        exact toInt_small hr this.1 (by omega)
      refine ⟨l.map fun v => (toIntS F (F.single v), F.single v), ?_, by rw [List.length_map]; omega, ?_⟩
      rotate_left
      · intro p x hx
        rw [List.getElem?_map] at hx
        obtain ⟨v, e, rfl⟩ := Option.map_eq_some_iff.1 hx
        exact val p v e
      · unfold lowers
        dsimp only
        rw [if_pos hn, lowerLoop_eq F (lower_int ht h0 h1), if_neg]
        rw [List.any_eq_true]
        rintro ⟨v, hv, hb⟩
        obtain ⟨p, hp⟩ := List.mem_iff_getElem?.1 hv
        have hp' : p < l.length := (List.getElem?_eq_some_iff.1 hp).1
        rw [val p v hp, decide_eq_true_iff] at hb
        have := ho p (by omega)
        omega
  obtain ⟨L, eL, nL, hL⟩ := low
  have up : ∃ U, uppers F f L upper = .ok U ∧ U.length = f.numPlanes.toNat ∧ ∀ p x, U[p]? = some x → x.1 = hi p := by
    rcases hu with ⟨rfl, h⟩ | ⟨l, rfl, hn, h⟩
    · unfold uppers
      dsimp only
      rw [shl1_ok h0 h1, Res.bind_ok]
      refine ⟨_, rfl, by simp, ?_⟩
      intro p x hx
      rw [List.getElem?_map] at hx
      obtain ⟨i, _, rfl⟩ := Option.map_eq_some_iff.1 hx
      exact (h p).symm
    · have val : ∀ p v, l[p]? = some v → toIntS F (F.single v) = hi p := by
        intro p v hv
        have hp : p < l.length := (List.getElem?_eq_some_iff.1 hv).1
        obtain ⟨q, e, hr⟩ := h p v hv
        have := ho p (by omega)
        rw [e]
        exact toInt_small hr (by omega) (by omega)
      refine ⟨(l.zip L).map fun v => (toIntS F (F.single v.1), F.single v.1), ?_, ?_, ?_⟩
      rotate_left
      · rw [List.length_map, List.length_zip]
        omega
      · intro p x hx
        rw [List.getElem?_map] at hx
        obtain ⟨v, e, rfl⟩ := Option.map_eq_some_iff.1 hx
        exact val p v.1 (List.getElem?_zip_eq_some.1 e).1
      · unfold uppers
        dsimp only
        rw [if_pos hn, upperLoop_eq F (upper_int ht h0 h1), if_neg]
        rw [List.any_eq_true]
        rintro ⟨v, hv, hb⟩
        obtain ⟨p, hp, hp2⟩ := mem_zip_get hv
        have hp' : p < l.length := (List.getElem?_eq_some_iff.1 hp).1
        rw [val p v.1 hp, decide_eq_true_iff, hL p v.2 hp2] at hb
        have := ho p (by omega)
        omega
  obtain ⟨U, eU, nU, hU⟩ := up
  refine ⟨L, U, eL, eU, ?_⟩
  intro p hp
  have a : p < L.length := by omega
  have b : p < U.length := by omega
  refine ⟨?_, ?_⟩
  · show (L.getD p (0, .nan)).1 = _
    rw [List.getD_eq_getElem?_getD, List.getElem?_eq_getElem a]
    exact hL p _ (List.getElem?_eq_getElem a)
  · show (U.getD p (0, .nan)).1 = _
    rw [List.getD_eq_getElem?_getD, List.getElem?_eq_getElem b]
    exact hU p _ (List.getElem?_eq_getElem b)

/-- The lists of bounds for a float clip. -/
theorem float_bounds {f : VFmt} (ht : f.sampleType = stFloat) {lower upper : Option (List Dbl)} (hs : upper = none → f.bitsPerSample = 16)
    {lo hi : Nat → Dbl} (hl : FloatBounds F f lower 0 (-1 / 2) lo) (hu : FloatBounds F f upper 1 (1 / 2) hi)
    (ho : upper ≠ none → ∀ p : Nat, (p : Int) < f.numPlanes → ¬ Crossed (lo p) (hi p)) :
    ∃ L U, lowers F f lower = .ok L ∧ uppers F f L upper = .ok U ∧
      ∀ p : Nat, (p : Int) < f.numPlanes → (boundsOf L U p).lowerf = lo p ∧ (boundsOf L U p).upperf = hi p := by
  have ch : ∀ p, chroma f p = true ↔ f.colorFamily = cfYUV ∧ 0 < p := by
    intro p
    unfold chroma
    rw [decide_eq_true_iff, Nat.pos_iff_ne_zero]
  have low : ∃ L, lowers F f lower = .ok L ∧ L.length = f.numPlanes.toNat ∧ ∀ p x, L[p]? = some x → x.2 = lo p := by
    rcases hl with ⟨rfl, h⟩ | ⟨l, rfl, hn, h⟩
    · refine ⟨_, rfl, by simp, ?_⟩
      intro p x hx
      rw [List.getElem?_map] at hx
      obtain ⟨i, hi', rfl⟩ := Option.map_eq_some_iff.1 hx
      obtain ⟨hp, rfl⟩ := List.getElem?_eq_some_iff.1 hi'
      rw [h p, List.getElem_range]
      simp only [ch]
    · refine ⟨l.map fun v => (toIntS F (F.single v), F.single v), ?_, by rw [List.length_map]; omega, ?_⟩
      rotate_left
      · intro p x hx
        rw [List.getElem?_map] at hx
        obtain ⟨v, e, rfl⟩ := Option.map_eq_some_iff.1 hx
        exact (h p v e).symm
      · unfold lowers
        dsimp only
        rw [if_pos hn, lowerLoop_eq F (bad := fun _ => false) (lower_float ht), if_neg]
        simp
  obtain ⟨L, eL, nL, hL⟩ := low
  have up : ∃ U, uppers F f L upper = .ok U ∧ U.length = f.numPlanes.toNat ∧ ∀ p x, U[p]? = some x → x.2 = hi p := by
    rcases hu with ⟨rfl, h⟩ | ⟨l, rfl, hn, h⟩
    · unfold uppers
      dsimp only
      have := hs rfl
      rw [shl1_ok (by omega) (by omega), Res.bind_ok]
      refine ⟨_, rfl, by simp, ?_⟩
      intro p x hx
      rw [List.getElem?_map] at hx
      obtain ⟨i, hi', rfl⟩ := Option.map_eq_some_iff.1 hx
      obtain ⟨hp, rfl⟩ := List.getElem?_eq_some_iff.1 hi'
      rw [h p, List.getElem_range]
      simp only [ch]
    · refine ⟨(l.zip L).map fun v => (toIntS F (F.single v.1), F.single v.1), ?_, ?_, ?_⟩
      rotate_left
      · rw [List.length_map, List.length_zip]
        omega
      · intro p x hx
        rw [List.getElem?_map] at hx
        obtain ⟨v, e, rfl⟩ := Option.map_eq_some_iff.1 hx
        exact (h p v.1 (List.getElem?_zip_eq_some.1 e).1).symm
      · unfold uppers
        dsimp only
        rw [if_pos hn, upperLoop_eq F (bad := fun _ x lo => lt x lo.2) (upper_float ht), if_neg]
        rw [List.any_eq_true]
        rintro ⟨v, hv, hb⟩
        obtain ⟨p, hp, hp2⟩ := mem_zip_get hv
        have hp' : p < l.length := (List.getElem?_eq_some_iff.1 hp).1
        rw [lt_crossed, hL p v.2 hp2, ← h p v.1 hp] at hb
        exact ho (by simp) p (by omega) hb
  obtain ⟨U, eU, nU, hU⟩ := up
  refine ⟨L, U, eL, eU, ?_⟩
  intro p hp
  have a : p < L.length := by omega
  have b : p < U.length := by omega
  refine ⟨?_, ?_⟩
  · show (L.getD p (0, .nan)).2 = _
    rw [List.getD_eq_getElem?_getD, List.getElem?_eq_getElem a]
    exact hL p _ (List.getElem?_eq_getElem a)
  · show (U.getD p (0, .nan)).2 = _
    rw [List.getD_eq_getElem?_getD, List.getElem?_eq_getElem b]
    exact hU p _ (List.getElem?_eq_getElem b)

theorem create_eq {al : Nat} {c : PClip} (hv : ValidClip al c) (hw : Workable c.vi.format) {lower upper : Option (List Dbl)} {L U : List (Int × Dbl)}
    (h1 : lowers F c.vi.format lower = .ok L) (h2 : uppers F c.vi.format L upper = .ok U) :
    pemCreate F al c.vi lower upper = .ok (.filter (pemFilter F al c.vi (boundsOf L U))) := by
  unfold pemCreate
  rw [(workable_iff _).2 hw, if_neg (by decide), h1, Res.bind_ok, h2, Res.bind_ok]
  exact create_ok hv.info

/-! ## Theorems -/

/-- Integer clips: a frame goes through unchanged if all its samples are within the bounds; else the error names the first sample that is not.
Without arguments all values of the format are legal. -/
theorem C98_integer {al : Nat} (hal : AlignOk al) {c : PClip} (hv : ValidClip al c) (hw : Workable c.vi.format)
    (ht : c.vi.format.sampleType = stInteger) {lower upper : Option (List Dbl)} {lo hi : Nat → Int}
    (hl : IntBounds F c.vi.format lower 0 lo) (hu : IntBounds F c.vi.format upper (2 ^ c.vi.format.bitsPerSample.toNat - 1) hi)
    (ho : ∀ p : Nat, (p : Int) < c.vi.format.numPlanes → 0 ≤ lo p ∧ lo p ≤ hi p ∧ hi p < 2 ^ c.vi.format.bitsPerSample.toNat) :
    ∃ C, pemCreate F al c.vi lower upper = .ok C ∧ outInfo C [c] = some c.vi ∧
      Verifies al C c (fun p v => lo p ≤ v ∧ (v : Int) ≤ hi p) toString := by
  obtain ⟨hs, _, b8, b16⟩ := bits_range hv hw
  obtain ⟨L, U, e1, e2, hb⟩ := int_bounds F ht (by omega) (b16 ht) hl hu ho
  refine ⟨_, create_eq F hv hw e1 e2, rfl, ?_⟩
  obtain ⟨k, k1, k2, k3⟩ := sizeKind_eq hs hw
  refine verifies_of F (align_pos hal) hv hw k1 k2 ?_
  intro p v hp _
  obtain ⟨q1, q2⟩ := hb p hp
  have : badSample F k (boundsOf L U p) v = badInt (boundsOf L U p) v := by
    unfold KindOk at k3
    cases k <;> dsimp only at k3
    · rfl
    · rfl
    · rw [ht] at k3; exact absurd k3.1 (by decide)
    · rw [ht] at k3; exact absurd k3.1 (by decide)
  rw [this]
  unfold badInt
  rw [q1, q2]
  exact ⟨fun h => if_neg (by omega), fun h => if_pos (by omega)⟩

/-- Float clips: the same, and infinities and NaNs are never legal. The default is 0 to 1, for chroma -0.5 to 0.5. Clips in single precision
need the argument `upper`. -/
theorem C98_float {al : Nat} (hal : AlignOk al) {c : PClip} (hv : ValidClip al c) (hw : Workable c.vi.format)
    (ht : c.vi.format.sampleType = stFloat) {lower upper : Option (List Dbl)} (hs : upper = none → c.vi.format.bitsPerSample = 16)
    {lo hi : Nat → Dbl} (hl : FloatBounds F c.vi.format lower 0 (-1 / 2) lo) (hu : FloatBounds F c.vi.format upper 1 (1 / 2) hi)
    (ho : upper ≠ none → ∀ p : Nat, (p : Int) < c.vi.format.numPlanes → ¬ Crossed (lo p) (hi p)) :
    ∃ C text, pemCreate F al c.vi lower upper = .ok C ∧ outInfo C [c] = some c.vi ∧
      (∀ v, v < 256 ^ bps c.vi.format → (layout c.vi.format).Finite v → text v = F.text (.fin ((layout c.vi.format).value v))) ∧
      Verifies al C c (Within c.vi.format lo hi) text := by
  obtain ⟨hst, _, _, _⟩ := bits_range hv hw
  obtain ⟨L, U, e1, e2, hb⟩ := float_bounds F ht hs hl hu ho
  obtain ⟨k, k1, k2, k3⟩ := sizeKind_eq hst hw
  have main : ∃ num : Nat → Dbl, (∀ b v, badSample F k b v = badFloat F b (num v)) ∧ ∀ v, v < 256 ^ bps c.vi.format →
      ((layout c.vi.format).Finite v → num v = .fin ((layout c.vi.format).value v)) ∧ (¬ (layout c.vi.format).Finite v → isFinite (num v) = false) := by
    unfold KindOk at k3
    cases k <;> dsimp only at k3
    · rw [ht] at k3; exact absurd k3.1 (by decide)
    · rw [ht] at k3; exact absurd k3.1 (by decide)
    · refine ⟨fun v => Resample.f32 (v : Nat), fun _ _ => rfl, ?_⟩
      intro v hv'
      have lay : layout c.vi.format = Half.Spec.single := if_neg (by omega)
      rw [lay]
      rw [k3.2.2] at hv'
      have hx : Half.Spec.single.Bits v := by
        show v < 2 ^ 32
        omega
      exact ⟨f32_value hx, f32_other hx⟩
    · refine ⟨fun v => Resample.f32 (Half.halfToFloat v : Nat), fun _ _ => rfl, ?_⟩
      intro v hv'
      have lay : layout c.vi.format = Half.Spec.half := if_pos k3.2.1
      rw [lay]
      rw [k3.2.2] at hv'
      have hx : Half.Spec.half.Bits v := by
        show v < 2 ^ 16
        omega
      obtain ⟨w1, _, w2, w3, w4⟩ := Half.C84_widen hx
      constructor
      · intro hf
        obtain ⟨w5, w6⟩ := w2 hf
        rw [← w6]
        exact f32_value w1 w5
      · intro hf
        refine f32_other w1 ?_
        have hexp : Half.Spec.half.exp v = 2 ^ Half.Spec.half.w - 1 := Classical.not_not.1 hf
        by_cases hz : Half.Spec.half.frac v = 0
        · exact fun h => h (w3 ⟨hexp, hz⟩).1
        · exact fun h => h (w4 ⟨hexp, hz⟩).1
  obtain ⟨num, n1, n2⟩ := main
  refine ⟨_, fun v => F.text (num v), create_eq F hv hw e1 e2, rfl, ?_, ?_⟩
  · intro v h1 h2
    dsimp only
    rw [(n2 v h1).1 h2]
  refine verifies_of F (align_pos hal) hv hw k1 k2 ?_
  intro p v hp hv'
  obtain ⟨q1, q2⟩ := hb p hp
  rw [n1]
  have iff : badFloat F (boundsOf L U p) (num v) = none ↔ Within c.vi.format lo hi p v := by
    unfold Within
    by_cases hf : (layout c.vi.format).Finite v
    · rw [(n2 v hv').1 hf, badFloat_fin, q1, q2]
      exact ⟨fun h => ⟨hf, h⟩, fun h => h.2⟩
    · constructor
      · intro h
        unfold badFloat at h
        rw [(n2 v hv').2 hf] at h
        simp at h
      · exact fun h => absurd h.1 hf
  exact ⟨iff.2, fun h => badFloat_some F (fun e => h (iff.1 e))⟩

theorem badInt_spec {f : VFmt} (h1 : f.bitsPerSample ≤ 16) {v : Dbl} (h : BadInt F f v) :
    toIntS F (F.single v) < 0 ∨ (2 : Int) ^ f.bitsPerSample.toNat ≤ toIntS F (F.single v) := by
  have top : (2 : Int) ^ f.bitsPerSample.toNat ≤ 2 ^ 16 := by
    have : 2 ^ f.bitsPerSample.toNat ≤ 2 ^ 16 := Nat.pow_le_pow_right (by decide) (by omega)
    exact_mod_cast this
  rcases h with ⟨neg, e⟩ | ⟨q, z, e, hr, hz⟩
  · rw [e]
    unfold toIntS
    cases neg
    · right
      show _ ≤ (2 ^ 31 - 1 : Int)
      omega
    · left
      show (-2 ^ 31 : Int) < 0
      decide
  · rw [e]
    exact toInt_bad hr top hz

theorem lowers_total {f : VFmt} {bad : Int → Bool} (h : ∀ i, badLower f i = .ok (bad i)) (lower : Option (List Dbl)) :
    (∃ m, lowers F f lower = .err m) ∨ ∃ L, lowers F f lower = .ok L ∧ L.length = f.numPlanes.toNat ∧
      (∀ (p : Nat) x, L[p]? = some x → lower = none ∧ x.1 = 0 ∨ ∃ l v, lower = some l ∧ l[p]? = some v ∧ x = (toIntS F (F.single v), F.single v) ∧
        bad x.1 = false) := by
  unfold lowers
  cases lower with
  | none =>
    refine Or.inr ⟨_, rfl, by simp, ?_⟩
    intro p x hx
    rw [List.getElem?_map] at hx
    obtain ⟨i, _, rfl⟩ := Option.map_eq_some_iff.1 hx
    exact Or.inl ⟨rfl, rfl⟩
  | some l =>
    dsimp only
    by_cases hn : (l.length : Int) = f.numPlanes
    · rw [if_pos hn, lowerLoop_eq F h]
      by_cases hb : l.any (fun v => bad (toIntS F (F.single v))) = true
      · rw [if_pos hb]
        exact Or.inl ⟨_, rfl⟩
      · rw [if_neg hb]
        refine Or.inr ⟨_, rfl, by rw [List.length_map]; omega, ?_⟩
        intro p x hx
        rw [List.getElem?_map] at hx
        obtain ⟨v, e, rfl⟩ := Option.map_eq_some_iff.1 hx
        refine Or.inr ⟨l, v, rfl, e, rfl, ?_⟩
        cases hx : bad (toIntS F (F.single v)) with
        | false => rfl
        | true => exact absurd (List.any_eq_true.2 ⟨v, List.mem_of_getElem? e, hx⟩) hb
    · rw [if_neg hn]
      exact Or.inl ⟨_, rfl⟩

/-- What PEMVerifier refuses: formats it cannot work on, a number of bounds that is not the number of planes, bounds an integer format does not
have, and upper bounds below the lower ones. -/
theorem C98_refused {al : Nat} {c : PClip} (hv : ValidClip al c) {lower upper : Option (List Dbl)}
    (h : ¬ Workable c.vi.format ∨
      (∃ l, lower = some l ∧ (l.length : Int) ≠ c.vi.format.numPlanes) ∨
      (∃ l, upper = some l ∧ (l.length : Int) ≠ c.vi.format.numPlanes) ∨
      (c.vi.format.sampleType = stInteger ∧ ∃ l v, (lower = some l ∨ upper = some l) ∧ v ∈ l ∧ BadInt F c.vi.format v) ∨
      (c.vi.format.sampleType = stInteger ∧ ∃ l u, ∃ p : Nat, ∃ v w q r y z, lower = some l ∧ upper = some u ∧ l[p]? = some v ∧ u[p]? = some w ∧
        F.single v = .fin q ∧ F.single w = .fin r ∧ RoundsTo q y ∧ RoundsTo r z ∧ z < y) ∨
      (c.vi.format.sampleType = stFloat ∧ ∃ l u, ∃ p : Nat, ∃ v w, lower = some l ∧ upper = some u ∧ l[p]? = some v ∧ u[p]? = some w ∧
        Crossed (F.single v) (F.single w))) :
    ∃ m, pemCreate F al c.vi lower upper = .err m := by
  unfold pemCreate
  by_cases hw : ¬ Workable c.vi.format
  · rw [not_workable hw]
    exact ⟨_, rfl⟩
  have hw' := Classical.not_not.1 hw
  rw [(workable_iff _).2 hw', if_neg (by decide)]
  obtain ⟨_, hty, b8, b16⟩ := bits_range hv hw'
  obtain ⟨bl, hbl⟩ : ∃ bl : Int → Bool, ∀ i, badLower c.vi.format i = .ok (bl i) := by
    rcases hty with ht | ht
    · exact ⟨_, lower_int ht (by omega) (b16 ht)⟩
    · exact ⟨_, lower_float ht⟩
  obtain ⟨bu, hbu⟩ : ∃ bu : Int → Dbl → Int × Dbl → Bool, ∀ i x lo, badUpper c.vi.format i x lo = .ok (bu i x lo) := by
    rcases hty with ht | ht
    · exact ⟨_, upper_int ht (by omega) (b16 ht)⟩
    · exact ⟨_, upper_float ht⟩
  have intL : c.vi.format.sampleType = stInteger → ∀ i, bl i = decide (i < 0 ∨ i ≥ 2 ^ c.vi.format.bitsPerSample.toNat) := by
    intro ht i
    have := (hbl i).symm.trans (lower_int ht (by omega) (b16 ht) i)
    injection this
  have intU : c.vi.format.sampleType = stInteger → ∀ i x lo, bu i x lo = decide (i < lo.1 ∨ i ≥ 2 ^ c.vi.format.bitsPerSample.toNat) := by
    intro ht i x lo
    have := (hbu i x lo).symm.trans (upper_int ht (by omega) (b16 ht) i x lo)
    injection this
  have fltU : c.vi.format.sampleType = stFloat → ∀ i x lo, bu i x lo = lt x lo.2 := by
    intro ht i x lo
    have := (hbu i x lo).symm.trans (upper_float ht i x lo)
    injection this
  rcases lowers_total F hbl lower with ⟨m, e⟩ | ⟨L, e, nL, hL⟩
  · rw [e]
    exact ⟨m, rfl⟩
  rw [e, Res.bind_ok]
  have fin : ∀ u, upper = some u → ((u.length : Int) ≠ c.vi.format.numPlanes ∨ ∃ p : Nat, ∃ v lo, u[p]? = some v ∧ L[p]? = some lo ∧
      bu (toIntS F (F.single v)) (F.single v) lo = true) → ∃ m, (uppers F c.vi.format L upper >>= fun hi =>
        create (pemFilter F al c.vi (boundsOf L hi))) = .err m := by
    rintro u rfl hu
    unfold uppers
    dsimp only
    by_cases hn : (u.length : Int) = c.vi.format.numPlanes
    · rw [if_pos hn, upperLoop_eq F hbu]
      rcases hu with hu | ⟨p, v, lo, h1, h2, h3⟩
      · exact absurd hn hu
      rw [if_pos]
      · exact ⟨_, rfl⟩
      refine List.any_eq_true.2 ⟨(v, lo), ?_, h3⟩
      exact List.mem_of_getElem? (i := p) (List.getElem?_zip_eq_some.2 ⟨h1, h2⟩)
    · rw [if_neg hn]
      exact ⟨_, rfl⟩
  have back : ∀ l (p : Nat) v, lower = some l → l[p]? = some v → (l.length : Int) = c.vi.format.numPlanes →
      L[p]? = some (toIntS F (F.single v), F.single v) ∧ bl (toIntS F (F.single v)) = false := by
    intro l p v hl hp hn
    have : p < l.length := (List.getElem?_eq_some_iff.1 hp).1
    have a : p < L.length := by omega
    rcases hL p _ (List.getElem?_eq_getElem a) with ⟨h1, _⟩ | ⟨l', v', h1, h2, h3, h4⟩
    · rw [hl] at h1
      cases h1
    · rw [hl] at h1
      cases h1
      rw [hp] at h2
      cases h2
      rw [h3] at h4
      refine ⟨?_, h4⟩
      rw [List.getElem?_eq_getElem a, h3]
  have len : ∀ l, lower = some l → (l.length : Int) = c.vi.format.numPlanes := by
    rintro l rfl
    by_contra hn
    unfold lowers at e
    dsimp only at e
    rw [if_neg hn] at e
    cases e
  rcases h with h | ⟨l, hl, hn⟩ | ⟨u, hu, hn⟩ | ⟨ht, l, v, hl, hvl, hb⟩ | ⟨ht, l, u, p, v, w, q, r, y, z, hl, hu, h1, h2, h3, h4, h5, h6, h7⟩ |
    ⟨ht, l, u, p, v, w, hl, hu, h1, h2, h3⟩
  · exact absurd h hw
  · exact absurd (len l hl) hn
  · exact fin u hu (Or.inl hn)
  · have hbad := badInt_spec F (b16 ht) hb
    obtain ⟨p, hp⟩ := List.mem_iff_getElem?.1 hvl
    rcases hl with hl | hu
    · obtain ⟨_, hx⟩ := back l p v hl hp (len l hl)
      rw [intL ht, decide_eq_false_iff_not] at hx
      omega
    · by_cases hn : (l.length : Int) = c.vi.format.numPlanes
      · have : p < l.length := (List.getElem?_eq_some_iff.1 hp).1
        have a : p < L.length := by omega
        refine fin l hu (Or.inr ⟨p, v, L[p], hp, List.getElem?_eq_getElem a, ?_⟩)
        rw [intU ht, decide_eq_true_iff]
        have h0 : 0 ≤ (L[p]).1 := by
          rcases hL p _ (List.getElem?_eq_getElem a) with ⟨_, h⟩ | ⟨_, _, _, _, _, h⟩
          · omega
          · rw [intL ht, decide_eq_false_iff_not] at h
            omega
        omega
      · exact fin l hu (Or.inl hn)
  · obtain ⟨hx, hy⟩ := back l p v hl h1 (len l hl)
    refine fin u hu (Or.inr ⟨p, w, _, h2, hx, ?_⟩)
    rw [intL ht, decide_eq_false_iff_not] at hy
    rw [intU ht, decide_eq_true_iff]
    have top : (2 : Int) ^ c.vi.format.bitsPerSample.toNat ≤ 2 ^ 16 := by
      have := b16 ht
      have : 2 ^ c.vi.format.bitsPerSample.toNat ≤ 2 ^ 16 := Nat.pow_le_pow_right (by decide) (by omega)
      exact_mod_cast this
    have ey : toIntS F (F.single v) = y := by
      rw [h3] at hy ⊢
      by_cases hr : y < 0 ∨ 2 ^ c.vi.format.bitsPerSample.toNat ≤ y
      · have := toInt_bad h5 top hr
        have e : toIntS F (.fin q) = Average.floatToIntS q := rfl
        rw [e] at hy
        omega
      · exact toInt_small h5 (by omega) (by omega)
    dsimp only
    rw [ey]
    by_cases hr : z < 0 ∨ 2 ^ c.vi.format.bitsPerSample.toNat ≤ z
    · have := toInt_bad h6 top hr
      rw [h4]
      rw [ey] at hy
      have e : toIntS F (.fin r) = Average.floatToIntS r := rfl
      rw [e]
      omega
    · have : toIntS F (F.single w) = z := by
        rw [h4]
        exact toInt_small h6 (by omega) (by omega)
      omega
  · obtain ⟨hx, _⟩ := back l p v hl h1 (len l hl)
    refine fin u hu (Or.inr ⟨p, w, _, h2, hx, ?_⟩)
    rw [fltU ht]
    exact lt_crossed.2 h3

/-- Clips in single precision without the argument `upper`: the default for integers is computed as `1 << 32`, which is undefined. -/
theorem C98_single_refuted {al : Nat} {c : PClip} (hw : Workable c.vi.format)
    (hb : c.vi.format.bitsPerSample = 32) : pemCreate F al c.vi none none = .ub := by
  unfold pemCreate
  rw [(workable_iff _).2 hw, if_neg (by decide)]
  show (uppers F c.vi.format _ none >>= fun hi => _) = _
  unfold uppers
  dsimp only
  have : shl1 c.vi.format.bitsPerSample = .ub := if_neg (by omega)
  rw [this]
  rfl

/-- A NaN is accepted as bound and switches the check off: all finite samples are legal. -/
theorem C98_nan_refuted {al : Nat} (hal : AlignOk al) {c : PClip} (hv : ValidClip al c) (hw : Workable c.vi.format)
    (ht : c.vi.format.sampleType = stFloat) (hF : F.single .nan = .nan) {l : List Dbl} (hn : (l.length : Int) = c.vi.format.numPlanes)
    (hl : ∀ v ∈ l, v = .nan) :
    ∃ C text, pemCreate F al c.vi (some l) (some l) = .ok C ∧ Verifies al C c (fun _ v => (layout c.vi.format).Finite v) text := by
  have hb : ∀ (p : Nat) v, l[p]? = some v → Dbl.nan = F.single v := by
    intro p v h
    rw [hl v (List.mem_of_getElem? h), hF]
  obtain ⟨C, text, e, _, _, h⟩ := C98_float F hal hv hw ht (lower := some l) (upper := some l) (fun h => by cases h) (lo := fun _ => .nan)
    (hi := fun _ => .nan) (Or.inr ⟨l, rfl, hn, hb⟩) (Or.inr ⟨l, rfl, hn, hb⟩) (fun _ _ _ h => h)
  refine ⟨C, text, e, ?_⟩
  have : Within c.vi.format (fun _ => .nan) (fun _ => .nan) = fun _ v => (layout c.vi.format).Finite v := by
    funext p v
    exact propext ⟨fun h => h.1, fun h => ⟨h, trivial, trivial⟩⟩
  rw [← this]
  exact h

/-- A lower bound above the default of the upper bound is accepted (as an argument the same upper bound is refused), and no frame is legal. -/
theorem C98_crossed_refuted {al : Nat} (hal : AlignOk al) {c : PClip} (hv : ValidClip al c) (hw : Workable c.vi.format)
    (ht : c.vi.format.sampleType = stFloat) (hb : c.vi.format.bitsPerSample = 16) (hp : c.vi.format.numPlanes = 1) (hF : F.single (.fin 2) = .fin 2) :
    ∃ C, pemCreate F al c.vi (some [.fin 2]) none = .ok C ∧
      ∀ n f, c.frames[n]? = some f → ∀ junk, ∃ m, C.frame [c] n junk = .err m := by
  obtain ⟨C, text, e, _, _, h⟩ := C98_float F hal hv hw ht (lower := some [.fin 2]) (upper := none) (fun _ => hb) (lo := fun _ => .fin 2)
    (hi := fun p => .fin (if c.vi.format.colorFamily = cfYUV ∧ 0 < p then 1 / 2 else 1)) (Or.inr ⟨_, rfl, by rw [hp]; rfl, by
      intro p v hv
      match p, hv with
      | 0, hv => cases hv; exact hF.symm⟩) (Or.inl ⟨rfl, fun _ => rfl⟩) (fun h => absurd rfl h)
  refine ⟨C, e, ?_⟩
  intro n f hf junk
  have hm := List.mem_of_getElem? hf
  have hvf := hv.frames f hm
  obtain ⟨_, w0, h0, _⟩ := row_plane hvf 0
  refine ⟨_, (h n f hf junk).2 0 0 0 ⟨by rw [hv.fmt f hm hw.1, hp]; decide, w0, h0⟩ ?_ ?_⟩
  · rintro ⟨_, a, b⟩
    dsimp only at b
    rw [if_neg (by simp)] at b
    unfold AtLeast at a
    unfold AtMost at b
    dsimp only at a b
    grind
  · intro p' x' y' _ hb
    unfold Before at hb
    omega

/-! ## Examples -/

/-- Exact numbers. -/
def exP : PFloats := ⟨fun v => v, 0, fun _ => "?"⟩

/-- A black picture with one white point: the point is found. -/
example : ∃ C, pemCreate exP 32 (clip1 gray8 4 4 dot Dict.empty).vi none (some [.fin 235]) = .ok C ∧
    outInfo C [clip1 gray8 4 4 dot Dict.empty] = some (clip1 gray8 4 4 dot Dict.empty).vi ∧
    Verifies 32 C (clip1 gray8 4 4 dot Dict.empty) (fun _ v => 0 ≤ (v : Int) ∧ (v : Int) ≤ 235) toString := by
  refine C98_integer exP (Or.inl rfl) (clip1_valid gray8_44 _ _) gray8_work rfl (lo := fun _ => 0) (hi := fun _ => 235)
    (Or.inl ⟨rfl, fun _ => rfl⟩) (Or.inr ⟨_, rfl, by decide, ?_⟩) (fun p _ => by decide)
  intro p v h
  match p, h with
  | 0, h =>
    cases h
    refine ⟨235, rfl, ?_⟩
    unfold RoundsTo
    decide +kernel

/-- A bound of 300 is refused for 8 bits. -/
example : ∃ m, pemCreate exP 32 (clip1 gray8 4 4 dot Dict.empty).vi none (some [.fin 300]) = .err m :=
  C98_refused exP (clip1_valid gray8_44 _ _) (Or.inr (Or.inr (Or.inr (Or.inl ⟨rfl, [.fin 300], .fin 300, Or.inr rfl, List.mem_singleton.2 rfl,
    Or.inr ⟨300, 300, rfl, by unfold RoundsTo; decide +kernel, Or.inr (by decide)⟩⟩))))

/-- A clip in half precision with the default bounds. -/
example : ∃ C text, pemCreate exP 32 (clip1 Merge.grayh 4 2 (fun _ k => k) Dict.empty).vi none none = .ok C ∧
    outInfo C [clip1 Merge.grayh 4 2 (fun _ k => k) Dict.empty] = some (clip1 Merge.grayh 4 2 (fun _ k => k) Dict.empty).vi ∧
    (∀ v, v < 256 ^ bps Merge.grayh → (layout Merge.grayh).Finite v → text v = exP.text (.fin ((layout Merge.grayh).value v))) ∧
    Verifies 32 C (clip1 Merge.grayh 4 2 (fun _ k => k) Dict.empty)
      (Within Merge.grayh (fun _ => .fin 0) (fun _ => .fin 1)) text :=
  C98_float exP (Or.inl rfl) (clip1_valid Merge.grayh_geo _ _) ((workable_iff _).1 rfl) rfl (fun _ => rfl)
    (Or.inl ⟨rfl, fun _ => (congrArg Dbl.fin (if_neg (fun h => absurd h.1 (by decide)))).symm⟩)
    (Or.inl ⟨rfl, fun _ => (congrArg Dbl.fin (if_neg (fun h => absurd h.1 (by decide)))).symm⟩) (fun h => absurd rfl h)

/-- A gray clip in single precision, as in `C98_single_refuted`. -/
example : pemCreate exP 32 (clip1 ⟨cfGray, stFloat, 32, 4, 0, 0, 1⟩ 4 2 (fun _ k => k) Dict.empty).vi none none = .ub :=
  C98_single_refuted exP ((workable_iff _).1 rfl) rfl

/-- NaN as bound. -/
example : ∃ C text, pemCreate exP 32 (clip1 Merge.grayh 4 2 (fun _ k => k) Dict.empty).vi (some [.nan]) (some [.nan]) = .ok C ∧
    Verifies 32 C (clip1 Merge.grayh 4 2 (fun _ k => k) Dict.empty) (fun _ v => (layout Merge.grayh).Finite v) text :=
  C98_nan_refuted exP (Or.inl rfl) (clip1_valid Merge.grayh_geo _ _) ((workable_iff _).1 rfl) rfl rfl rfl
    (fun _ h => List.mem_singleton.1 h)

/-- A lower bound of 2. -/
example : ∃ C, pemCreate exP 32 (clip1 Merge.grayh 4 2 (fun _ k => k) Dict.empty).vi (some [.fin 2]) none = .ok C ∧
    ∀ n f, (clip1 Merge.grayh 4 2 (fun _ k => k) Dict.empty).frames[n]? = some f → ∀ junk,
      ∃ m, C.frame [clip1 Merge.grayh 4 2 (fun _ k => k) Dict.empty] n junk = .err m :=
  C98_crossed_refuted exP (Or.inl rfl) (clip1_valid Merge.grayh_geo _ _) ((workable_iff _).1 rfl) rfl rfl rfl rfl

end VS.Pem
