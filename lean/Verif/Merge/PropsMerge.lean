import Verif.Merge.LemmasFrame
import Verif.Point.Example

/-! # C65: Merge -/

namespace VS.Merge
open VS VS.Format VS.Map VS.Map.Spec VS.Pix VS.Pix.Spec VS.Point VS.Point.Spec VS.Merge.Spec

/-! ## Weights -/

theorem units_ok {F : Floats} (hF : Accurate F.rnd) {w : Rat} (h0 : 0 ≤ w) (h1 : w ≤ 1) :
    w * 32768 ≤ ((weightU F w : Nat) : Rat) + 1 ∧ ((weightU F w : Nat) : Rat) ≤ w * 32768 + 1 ∧ weightU F w ≤ 32767 ∧
      (w = 0 → weightU F w = 0) ∧ (w = 1 → weightU F w ≠ 0) := by
  obtain ⟨a, b⟩ := hF (w * 32768 + 1 / 2) (by grind)
  unfold weightU
  generalize hr : F.rnd (w * 32768 + 1 / 2) = r at *
  have f1 := Rat.floor_le (a := r)
  have f2 := Rat.lt_floor_add_one (a := r)
  have hf0 : 0 ≤ r.floor := by
    rw [Rat.le_floor_iff]
    grind
  generalize r.floor = k at *
  obtain ⟨n, rfl⟩ : ∃ n : Nat, k = n := ⟨k.toNat, by omega⟩
  have hc : (((n : Nat) : Int) : Rat) = ((n : Nat) : Rat) := rfl
  rw [Rat.intCast_add, hc] at f2
  rw [hc] at f1
  have one : ((1 : Int) : Rat) = 1 := rfl
  rw [one] at f2
  rw [Int.toNat_natCast]
  refine ⟨?_, ?_, by omega, ?_, ?_⟩
  · by_cases c : n ≤ 32767
    · rw [Nat.min_eq_left c]; grind
    · rw [Nat.min_eq_right (by omega)]; grind
  · by_cases c : n ≤ 32767
    · rw [Nat.min_eq_left c]; grind
    · rw [Nat.min_eq_right (by omega)]
      have : ((32768 : Nat) : Rat) ≤ (n : Nat) := by
        rw [Rat.natCast_le_natCast]; omega
      have : ((32767 : Nat) : Rat) + 1 = ((32768 : Nat) : Rat) := by decide +kernel
      grind
  · intro e
    subst e
    by_cases c : n = 0
    · rw [c]; rfl
    · have : ((1 : Nat) : Rat) ≤ (n : Nat) := by
        rw [Rat.natCast_le_natCast]; omega
      have h1 : ((1 : Nat) : Rat) = 1 := rfl
      grind
  · intro e
    subst e
    by_cases c : n = 0
    · subst c
      have h1 : ((0 : Nat) : Rat) = 0 := rfl
      grind
    · omega

theorem mean_zero (a b : Int) : mean 0 a b = a := by
  unfold mean nearest
  rw [Int.zero_mul, Int.sub_zero, Int.add_zero]
  omega

theorem mean_full (a b : Int) : mean 32768 a b = b := by
  unfold mean nearest
  rw [Int.sub_self, Int.zero_mul, Int.zero_add]
  omega

/-- C65: a merged sample is not outside of the range between the two samples. -/
theorem C65_between {u : Nat} (hu : u ≤ 32768) (a b : Int) : min a b ≤ mean u a b ∧ mean u a b ≤ max a b := by
  unfold mean nearest
  have e : (32768 - (u : Int)) * a + u * b = 32768 * a + u * (b - a) := by grind
  rw [e]
  by_cases h : a ≤ b
  · have h1 : 0 ≤ (u : Int) * (b - a) := Int.mul_nonneg (by omega) (by omega)
    have h2 : (u : Int) * (b - a) ≤ 32768 * (b - a) := Int.mul_le_mul_of_nonneg_right (by omega) (by omega)
    generalize (u : Int) * (b - a) = P at *
    omega
  · have e2 : (u : Int) * (b - a) = -(u * (a - b)) := by grind
    have h1 : 0 ≤ (u : Int) * (a - b) := Int.mul_nonneg (by omega) (by omega)
    have h2 : (u : Int) * (a - b) ≤ 32768 * (a - b) := Int.mul_le_mul_of_nonneg_right (by omega) (by omega)
    rw [e2]
    generalize (u : Int) * (a - b) = P at *
    omega

example : mean 16384 10 20 = 15 ∧ mean 8192 255 0 = 191 := by decide

/-- The three weights. -/
theorem weights_ok {ws : List Rat} (h3 : ws.length ≤ 3) :
    ∃ w0 w1 w2, fweights (ws.map some) = .ok [some w0, some w1, some w2] ∧ w0 = weightOf ws 0 ∧ w1 = weightOf ws 1 ∧
      w2 = weightOf ws 2 := by
  match ws, h3 with
  | [], _ => exact ⟨_, _, _, rfl, rfl, rfl, rfl⟩
  | [a], _ => exact ⟨_, _, _, rfl, rfl, rfl, rfl⟩
  | [a, b], _ => exact ⟨_, _, _, rfl, rfl, rfl, rfl⟩
  | [a, b, c], _ => exact ⟨_, _, _, rfl, rfl, rfl, rfl⟩

theorem weightOf_range {ws : List Rat} (h : ∀ w ∈ ws, 0 ≤ w ∧ w ≤ 1) (p : Nat) : 0 ≤ weightOf ws p ∧ weightOf ws p ≤ 1 := by
  unfold weightOf
  split
  · decide +kernel
  · rename_i hn
    have hl : 0 < ws.length := List.length_pos_iff.2 hn
    rw [List.getD_eq_getElem?_getD, List.getElem?_eq_getElem (by omega)]
    exact h _ (List.getElem_mem _)

theorem check_ok (F : Floats) {w0 w1 w2 : Rat} (h0 : 0 ≤ w0 ∧ w0 ≤ 1) (h1 : 0 ≤ w1 ∧ w1 ≤ 1) (h2 : 0 ≤ w2 ∧ w2 ≤ 1) :
    checkWeights F [some w0, some w1, some w2] = .ok [(w0, weightU F w0), (w1, weightU F w1), (w2, weightU F w2)] := by
  simp only [checkWeights, if_pos h0, if_pos h1, if_pos h2, Res.bind_ok]

/-- The weights of the planes that Merge works with. -/
def planeWeights (F : Floats) (ws : List Rat) : List (Rat × Nat) :=
  [0, 1, 2].map fun p => (weightOf ws p, weightU F (weightOf ws p))

theorem planeWeights_get {F : Floats} {ws : List Rat} {p : Nat} (hp : p < 3) :
    (planeWeights F ws).getD p (0, 0) = (weightOf ws p, weightU F (weightOf ws p)) := by
  match p, hp with
  | 0, _ => rfl
  | 1, _ => rfl
  | 2, _ => rfl

theorem mergeCreate_ok {al : Nat} (F : Floats) {a b : PClip} (ha : ValidClip al a) (hb : ValidClip al b) {ws : List Rat}
    (hws : ∀ w ∈ ws, 0 ≤ w ∧ w ≤ 1) (hl : (ws.length : Int) ≤ a.vi.format.numPlanes) (hw : Workable a.vi.format)
    (hc : Constant a.vi) (hf : Fit a.vi b.vi) :
    mergeCreate F al a.vi b.vi (ws.map some) = .ok (.filter (mergeFilter F al a.vi (planeWeights F ws))) := by
  have hnp := (fmtOk (struct_of ha) hc.2.2).planes
  obtain ⟨w0, w1, w2, e, e0, e1, e2⟩ := weights_ok (ws := ws) (by omega)
  unfold mergeCreate
  rw [e, Res.bind_ok, check_ok F (e0 ▸ weightOf_range hws 0) (e1 ▸ weightOf_range hws 1) (e2 ▸ weightOf_range hws 2), Res.bind_ok,
    (workable_iff _).2 hw, (constant_iff _).2 hc, (fit_iff ha hb hc).2 hf]
  simp only [Bool.not_true, Bool.or_self, Bool.false_eq_true, if_false]
  rw [if_neg (by rw [List.length_map]; omega), e0, e1, e2]
  exact create_ok ha.info

theorem merge_gives {al : Nat} (hal : AlignOk al) (F : Floats) {a b : PClip} (ha : ValidClip al a) (hb : ValidClip al b) {ws : List Rat}
    (hw : Workable a.vi.format) (hc : Constant a.vi) (hf : Fit a.vi b.vi) {n : Nat} {fa fb : Frm} (hfa : at? a n = some fa)
    (hfb : at? b n = some fb) {S : Nat → Nat → Nat → Int}
    (hS : ∀ p x y : Nat, (p : Int) < a.vi.format.numPlanes → x < fa.w p → y < fa.h p →
      (mergeOut F a.vi.format (weightOf ws p, weightU F (weightOf ws p)) (smp al fa p x y) (smp al fb p x y) : Int) = S p x y) :
    Gives al (.filter (mergeFilter F al a.vi (planeWeights F ws))) [a, b] n a.vi.format fa.width fa.height fa.props S := by
  obtain ⟨va, a1, a2, a3⟩ := const_frame ha hc (at_mem hfa)
  obtain ⟨b1, b2, b3⟩ := fit_frame ha hb hc hf (at_mem hfa) (at_mem hfb)
  have vb := hb.frames fb (at_mem hfb)
  have hnp := (fmtOk (struct_of ha) hc.2.2).planes
  refine gives_of rfl a2.symm a3.symm ?_
  intro junk
  obtain ⟨g, e, v, g1, g2, g3, g4, g5⟩ := mergeFrame_ok (F := F) (align_pos hal) va vb a1 a2 a3 b1 b2 b3 hw (planeWeights F ws) junk
  refine ⟨g, ?_, v, g1, g2, g3, g4, ?_⟩
  · show (getFrameFilter [a, b] [(0, n), (1, n)] 0 n >>= fun s1 => getFrameFilter [a, b] [(0, n), (1, n)] 1 n >>= fun s2 =>
      mergeFrame F al a.vi (planeWeights F ws) s1 s2 junk) = _
    rw [get_ok (i := 0) rfl ha (by simp) hfa, Res.bind_ok, get_ok (i := 1) rfl hb (by simp) hfb, Res.bind_ok, e]
  · intro p x y hp hx hy
    rw [g5 p x y hp hx hy, planeWeights_get (by omega)]
    refine hS p x y hp ?_ ?_
    · rw [← w_eq (show g.fmt = fa.fmt by rw [g1, a1]) g2]; exact hx
    · rw [← h_eq (show g.fmt = fa.fmt by rw [g1, a1]) g3]; exact hy

/-- C65: every sample of Merge is the weighted mean of the samples, rounded to the nearest integer; the weight is exact up
to 1 / 32768, and exact if it is 0 or 1. Frame properties are those of the first clip. -/
theorem C65_merge {al : Nat} (hal : AlignOk al) (F : Floats) (hF : Accurate F.rnd) {a b : PClip} (ha : ValidClip al a)
    (hb : ValidClip al b) {ws : List Rat} (hws : ∀ w ∈ ws, 0 ≤ w ∧ w ≤ 1) (hl : (ws.length : Int) ≤ a.vi.format.numPlanes)
    (hw : Workable a.vi.format) (ht : a.vi.format.sampleType = stInteger) (hc : Constant a.vi) (hf : Fit a.vi b.vi) :
    ∃ C, mergeCreate F al a.vi b.vi (ws.map some) = .ok C ∧ outInfo C [a, b] = some a.vi ∧
      ∃ u : Nat → Nat, (∀ p : Nat, Units (weightOf ws p) (u p)) ∧
        ∀ n fa fb, at? a n = some fa → at? b n = some fb →
          Gives al C [a, b] n a.vi.format fa.width fa.height fa.props
            fun p x y => mean (u p) (smp al fa p x y) (smp al fb p x y) := by
  refine ⟨_, mergeCreate_ok F ha hb hws hl hw hc hf, rfl,
    fun p => if weightOf ws p = 1 then 32768 else weightU F (weightOf ws p), ?_, ?_⟩
  · intro p
    obtain ⟨r0, r1⟩ := weightOf_range hws p
    obtain ⟨u1, u2, u3, u4, u5⟩ := units_ok hF r0 r1
    dsimp only
    by_cases c : weightOf ws p = 1
    · rw [if_pos c, c]
      exact ⟨by decide +kernel, by decide +kernel, by omega, fun h => absurd h (by decide +kernel), fun _ => rfl⟩
    · rw [if_neg c]
      exact ⟨u1, u2, by omega, u4, fun h => absurd h c⟩
  · intro n fa fb hfa hfb
    refine merge_gives hal F ha hb hw hc hf hfa hfb ?_
    intro p x y hp hx hy
    obtain ⟨_, a1, _, _⟩ := const_frame ha hc (at_mem hfa)
    obtain ⟨b1, b2, b3⟩ := fit_frame ha hb hc hf (at_mem hfa) (at_mem hfb)
    obtain ⟨k, hk, hkb, hko⟩ := kind_ok (struct_of ha) hw
    obtain ⟨r0, r1⟩ := weightOf_range hws p
    obtain ⟨_, _, u3, _, u5⟩ := units_ok hF r0 r1
    have l1 := smp_lt (al := al) fa p x y
    have l2 := smp_lt (al := al) fb p x y
    rw [b1, a1] at l2
    rw [a1] at l1
    generalize smp al fa p x y = v1 at *
    generalize smp al fb p x y = v2 at *
    unfold mergeOut mergeProcess
    dsimp only
    rw [if_pos ht, hk]
    by_cases c0 : weightU F (weightOf ws p) = 0
    · rw [if_pos c0, if_neg (by decide), if_pos rfl, if_neg (fun c => u5 c c0), c0]
      exact (mean_zero _ _).symm
    · rw [if_neg c0]
      by_cases c1 : weightOf ws p = 1
      · rw [if_pos c1, if_neg (by decide), if_neg (by decide), if_pos c1]
        exact (mean_full _ _).symm
      · rw [if_neg c1, if_pos rfl, if_neg c1]
        have n1 : (stFloat : Int) ≠ stInteger := by decide
        cases k with
        | byte => exact mergePx_ok (Or.inl hko.2.2) (by omega) l1 l2
        | word => exact mergePx_ok (Or.inr hko.2.2.2) (by omega) l1 l2
        | single => exact absurd (hko.1.symm.trans ht) n1
        | half => exact absurd (hko.1.symm.trans ht) n1

/-- Exact arithmetic. -/
def exFloats : Floats := ⟨id, fun _ _ _ => 0, fun _ _ v _ => v, fun _ _ v _ => v, fun _ _ v _ => v, fun _ v _ => v, fun _ v _ => v⟩

theorem exFloats_accurate : Accurate exFloats.rnd := by
  intro x hx
  show x - x / 16777216 ≤ x ∧ x ≤ x + x / 16777216
  constructor <;> grind

/-- Two frames of a YUV clip with the weights one quarter for luma and one for chroma. -/
example : ∃ C, mergeCreate exFloats 32 exClip.vi exClip.vi [some (1 / 4), some 1] = .ok C := by
  obtain ⟨C, e, _⟩ := C65_merge (Or.inl rfl) exFloats exFloats_accurate exClip_valid exClip_valid (ws := [1 / 4, 1])
    (by decide +kernel) (by decide) ⟨by decide, by decide, by decide⟩ rfl ⟨by decide, by decide, by decide⟩ ⟨rfl, rfl, rfl⟩
  exact ⟨C, e⟩

/-- C65: with samples of type float, weight 0 gives the first and weight 1 the second clip, bit by bit; otherwise the
floating point mean of the two samples. -/
theorem C65_merge_float {al : Nat} (hal : AlignOk al) (F : Floats) {a b : PClip} (ha : ValidClip al a)
    (hb : ValidClip al b) {ws : List Rat} (hws : ∀ w ∈ ws, 0 ≤ w ∧ w ≤ 1) (hl : (ws.length : Int) ≤ a.vi.format.numPlanes)
    (hw : Workable a.vi.format) (ht : a.vi.format.sampleType = stFloat) (hc : Constant a.vi) (hf : Fit a.vi b.vi) :
    ∃ C, mergeCreate F al a.vi b.vi (ws.map some) = .ok C ∧ outInfo C [a, b] = some a.vi ∧
      ∀ n fa fb, at? a n = some fa → at? b n = some fb →
        Gives al C [a, b] n a.vi.format fa.width fa.height fa.props fun p x y =>
          if weightOf ws p = 0 then smp al fa p x y else if weightOf ws p = 1 then smp al fb p x y
          else (F.merge (if a.vi.format.bitsPerSample = 32 then .single else .half) (weightOf ws p) (smp al fa p x y)
            (smp al fb p x y) % 256 ^ bps a.vi.format : Nat) := by
  refine ⟨_, mergeCreate_ok F ha hb hws hl hw hc hf, rfl, ?_⟩
  intro n fa fb hfa hfb
  refine merge_gives hal F ha hb hw hc hf hfa hfb ?_
  intro p x y hp hx hy
  obtain ⟨k, hk, hkb, hko⟩ := kind_ok (struct_of ha) hw
  unfold mergeOut mergeProcess
  dsimp only
  have n1 : (stFloat : Int) ≠ stInteger := by decide
  rw [if_neg (c := a.vi.format.sampleType = stInteger) (by rw [ht]; exact n1), if_pos ht, hk]
  by_cases c0 : weightOf ws p = 0
  · rw [if_pos c0, if_neg (by decide), if_pos rfl, if_pos c0]
  · rw [if_neg c0]
    by_cases c1 : weightOf ws p = 1
    · rw [if_pos c1, if_neg (by decide), if_neg (by decide), if_neg c0, if_pos c1]
    · rw [if_neg c1, if_pos rfl, if_neg c0, if_neg c1]
      cases k with
      | byte => exact absurd (ht.symm.trans hko.1) n1
      | word => exact absurd (ht.symm.trans hko.1) n1
      | single => rw [if_pos hko.2.1]; rfl
      | half => rw [if_neg (by rw [hko.2.1]; decide)]; rfl

example : ∃ C, mergeCreate exFloats 32 (clip1 rgbs 4 2 exPx Dict.empty).vi (clip1 rgbs 4 2 exPx Dict.empty).vi [some (1 / 4)] = .ok C := by
  have v := clip1_valid rgbs_geo exPx Dict.empty
  obtain ⟨C, e, _⟩ := C65_merge_float (Or.inl rfl) exFloats v v (ws := [1 / 4])
    (by decide +kernel) (by decide) ⟨by decide, by decide, by decide⟩ rfl ⟨by decide, by decide, by decide⟩ ⟨rfl, rfl, rfl⟩
  exact ⟨C, e⟩

/-- C65: everything else is refused with an error, as long as there are at most three weights. -/
theorem C65_merge_refused {al : Nat} (F : Floats) {a b : PClip} (ha : ValidClip al a) (hb : ValidClip al b)
    {ws : List (Option Rat)} (h3 : ws.length ≤ 3)
    (h : ¬ ((∀ w ∈ ws, ∃ r, w = some r ∧ 0 ≤ r ∧ r ≤ 1) ∧ (ws.length : Int) ≤ a.vi.format.numPlanes ∧ Workable a.vi.format ∧
      Constant a.vi ∧ Fit a.vi b.vi)) : ∃ m, mergeCreate F al a.vi b.vi ws = .err m := by
  obtain ⟨fw, e, hfw⟩ : ∃ fw, fweights ws = .ok fw ∧ ∀ w ∈ ws, w ∈ fw := by
    match ws, h3 with
    | [], _ => exact ⟨_, rfl, by simp⟩
    | [a], _ => exact ⟨_, rfl, by simp⟩
    | [a, b], _ => exact ⟨_, rfl, by simp⟩
    | [a, b, c], _ => exact ⟨_, rfl, by simp⟩
  have hck : ∀ l : List (Option Rat), (∃ r, checkWeights F l = .ok r ∧ ∀ w ∈ l, ∃ r, w = some r ∧ 0 ≤ r ∧ r ≤ 1) ∨
      ∃ m, checkWeights F l = .err m := by
    intro l
    induction l with
    | nil => exact Or.inl ⟨_, rfl, by simp⟩
    | cons o t ih =>
      cases o with
      | none => exact Or.inr ⟨_, rfl⟩
      | some w =>
        unfold checkWeights
        by_cases c : 0 ≤ w ∧ w ≤ 1
        · rw [if_pos c]
          rcases ih with ⟨r, e, hr⟩ | ⟨m, e⟩
          · rw [e]
            refine Or.inl ⟨_, rfl, ?_⟩
            intro v hv
            rcases List.mem_cons.1 hv with rfl | hv
            · exact ⟨w, rfl, c⟩
            · exact hr v hv
          · rw [e]; exact Or.inr ⟨m, rfl⟩
        · rw [if_neg c]; exact Or.inr ⟨_, rfl⟩
  unfold mergeCreate
  rw [e, Res.bind_ok]
  rcases hck fw with ⟨r, e2, hr⟩ | ⟨m, e2⟩
  · rw [e2, Res.bind_ok]
    cases e3 : is8to16orFloat a.vi.format with
    | false => exact ⟨_, rfl⟩
    | true =>
      cases e4 : isConstantVideoFormat a.vi with
      | false => exact ⟨_, rfl⟩
      | true =>
        cases e5 : isSameVideoInfo a.vi b.vi with
        | false => exact ⟨_, rfl⟩
        | true =>
          have hc := (constant_iff _).1 e4
          simp only [Bool.not_true, Bool.or_self, Bool.false_eq_true, if_false]
          by_cases c : (ws.length : Int) > a.vi.format.numPlanes
          · rw [if_pos c]; exact ⟨_, rfl⟩
          · exact absurd ⟨fun w hw => hr w (hfw w hw), by omega, (workable_iff _).1 e3, hc, (fit_iff ha hb hc).1 e5⟩ h
  · rw [e2]; exact ⟨m, rfl⟩

/-- Two weights for a clip with one plane. -/
example : ∃ m, mergeCreate exFloats 32 (clip1 gray8 4 2 exPx Dict.empty).vi (clip1 gray8 4 2 exPx Dict.empty).vi
    [some (1 / 4), some 1] = .err m := by
  have v := clip1_valid gray8_geo exPx Dict.empty
  refine C65_merge_refused exFloats v v (by decide) (fun h => ?_)
  exact absurd h.2.1 (by decide)

/-- C65 does not hold without a bound on the number of weights: the fourth one is written behind the end of an array
before the number of weights is checked. -/
theorem C65_many_weights_refuted (F : Floats) (al : Nat) (a b : VInfo) (w0 w1 w2 w3 : Option Rat) (ws : List (Option Rat)) :
    mergeCreate F al a b (w0 :: w1 :: w2 :: w3 :: ws) = .ub := rfl

end VS.Merge
