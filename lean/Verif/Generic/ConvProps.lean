import Verif.Generic.ConvArgs
import Verif.Generic.PropsMore

/-! # C79: Convolution -/

namespace VS.Generic
open VS VS.Format VS.Map VS.Map.Spec VS.Pix VS.Pix.Spec VS.Point VS.Point.Spec VS.Pixel VS.Pixel.Spec VS.Generic.Spec

variable (F : Floats)

/-! ## Sizes -/

theorem clip_fits {al : Nat} {c : PClip} (hv : ValidClip al c) {mode : ConvMode} {n : Nat} {planes : List Int} :
    ClipFits mode n c.vi planes ↔ (0 < c.vi.width → ∀ p : Nat, (p : Int) < c.vi.format.numPlanes → Wanted planes p →
      checkDims (radiusH mode n) (radiusV mode n) (planeDim c.vi.width c.vi.format.subSamplingW p)
        (planeDim c.vi.height c.vi.format.subSamplingH p) = none) := by
  obtain ⟨_, _, _, i1, i2, _, _, i3⟩ := (info_iff _).1 hv.info
  unfold ClipFits
  constructor
  · intro h h0 p hp hwp
    have := h h0 p hp hwp
    rw [checkDims_fits, planeDim_eq (by omega), planeDim_eq (by omega)]
    exact this
  · intro h h0 p hp hwp
    have := checkDims_fits.1 (h h0 p hp hwp)
    rw [planeDim_eq (by omega), planeDim_eq (by omega)] at this
    exact this

theorem fits_bad {al : Nat} {c : PClip} (hv : ValidClip al c) (hw : Workable c.vi.format) (name : String) {mode : ConvMode} {n : Nat}
    (cell : Kind → (Nat → Nat → Res Nat) → Nat → Nat → Nat → Nat → Res Nat) {planes : List Int} {process : List Bool}
    (hpr : ∀ p : Nat, p < 3 → process.getD p false = decide (Wanted planes p)) (h : ¬ ClipFits mode n c.vi planes) :
    ∃ m, genFinish al name c.vi (radiusH mode n) (radiusV mode n) cell process = .err m := by
  refine (genFinish_ok hv hw name cell hpr).2 ?_
  rw [clip_fits hv] at h
  refine ⟨?_, ?_⟩
  · refine Decidable.byContradiction fun hc => h fun h0 => absurd h0 hc
  · refine Classical.byContradiction fun hc => h fun _ p hp hwp => Classical.byContradiction fun hd => hc ⟨p, hp, hwp, hd⟩

/-- A filter with a kernel for planes of the right size. -/
theorem fits_ok {al : Nat} (hal : AlignOk al) {c : PClip} (hv : ValidClip al c) (hw : Workable c.vi.format) (name : String) {mode : ConvMode}
    {len : Nat} (cell : Kind → (Nat → Nat → Res Nat) → Nat → Nat → Nat → Nat → Res Nat) {planes : List Int} {process : List Bool}
    (hpr : ∀ p : Nat, p < 3 → process.getD p false = decide (Wanted planes p)) (hb : ClipFits mode len c.vi planes) :
    ∃ k C, KindOk c.vi.format k ∧ genFinish al name c.vi (radiusH mode len) (radiusV mode len) cell process = .ok C ∧
      outInfo C [c] = some c.vi ∧ ∀ n f, at? c n = some f → (c.vi.width = 0 → FrameFits mode len f planes) → ∀ S : Nat → Nat → Nat → Nat,
        (∀ p : Nat, VS.Generic.Spec.Fits mode len (f.w p) (f.h p) → ∀ R x y,
          (∀ cx cy, cx < f.w p → cy < f.h p → R cx cy = .ok (smp al f p cx cy)) → x < f.w p → y < f.h p →
          cell k R (f.w p) (f.h p) x y = .ok (S p x y)) →
        Gives al C [c] n f.fmt f.width f.height f.props fun p x y =>
          if Wanted planes p then ((S p x y % 256 ^ bps f.fmt : Nat) : Int) else smp al f p x y := by
  obtain ⟨_, _, _, i1, i2, _, _, i3⟩ := (info_iff _).1 hv.info
  obtain ⟨k, hk, hkb, e⟩ := (genFinish_ok hv hw name cell hpr).1 ((clip_fits hv).1 hb)
  refine ⟨k, _, hk, e, rfl, ?_⟩
  intro n f hf hbf S hS
  have ef := hv.fmt f (at_mem hf) hw.1
  have hbig : ∀ p : Nat, (p : Int) < f.fmt.numPlanes → Wanted planes p → VS.Generic.Spec.Fits mode len (f.w p) (f.h p) := by
    intro p hp hwp
    by_cases h0 : c.vi.width = 0
    · exact hbf h0 p hp hwp
    · obtain ⟨d1, d2⟩ := dims_eq hv hw hf (by omega) p
      have := checkDims_fits.1 ((clip_fits hv).1 hb (by omega) p (by rw [← ef]; exact hp) hwp)
      rw [d1, d2] at this
      exact this
  refine gen_gives hal hv hpr hf (by rw [hkb, ef]) (fun p hp hwp => checkDims_fits.2 (hbig p hp hwp)) ?_
  intro p hp hwp R x y hR hx hy
  exact hS p (hbig p hp hwp) R x y hR hx hy

/-! ## Sizes of sums -/

theorem sum_small {α : Type} (l : List α) (g : α → Int) (B : Nat) (h : ∀ a ∈ l, (g a).natAbs ≤ B) : ((l.map g).sum).natAbs ≤ l.length * B := by
  induction l with
  | nil => simp
  | cons a t ih =>
    have h1 := h a List.mem_cons_self
    have h2 := ih fun b hb => h b (List.mem_cons_of_mem _ hb)
    rw [List.map_cons, List.sum_cons, List.length_cons, Nat.add_mul]
    omega

section
variable {m : List Int} {v : Nat → Nat → Nat} (hm : ∀ c ∈ m, c.natAbs ≤ 1023) (hv : ∀ x y, v x y ≤ 65535)
include hm hv

theorem term_small (i x y : Nat) : (m.getD i 0 * (v x y : Int)).natAbs ≤ 1023 * 65535 := by
  rw [Int.natAbs_mul]
  exact Nat.mul_le_mul (getD_bound hm i) (by have := hv x y; omega)

theorem row_small (hn : m.length ≤ 25) (w x y : Nat) : (rowSum m v w x y).natAbs ≤ 2 ^ 40 := by
  have := sum_small (List.range m.length) (fun (k : Nat) => m.getD k 0 * (v (mirrored w ((x : Int) + (k : Int) - (m.length / 2 : Nat))) y : Int))
    (1023 * 65535) fun k _ => term_small hm hv _ _ _
  rw [List.length_range] at this
  exact Nat.le_trans this (by omega)

theorem col_small (hn : m.length ≤ 25) (h x y : Nat) : (colSum m v h x y).natAbs ≤ 2 ^ 40 := by
  have := sum_small (List.range m.length) (fun (k : Nat) => m.getD k 0 * (v x (mirrored h ((y : Int) + (k : Int) - (m.length / 2 : Nat))) : Int))
    (1023 * 65535) fun k _ => term_small hm hv _ _ _
  rw [List.length_range] at this
  exact Nat.le_trans this (by omega)

theorem box_small {n : Nat} (hn : n ≤ 11) (w h x y : Nat) : (boxSum n m v w h x y).natAbs ≤ 2 ^ 40 := by
  have := sum_small (List.range n) (fun (r : Nat) => ((List.range n).map fun (k : Nat) => m.getD (r * n + k) 0 *
    (v (mirrored w ((x : Int) + (k : Int) - (n / 2 : Nat))) (mirrored h ((y : Int) + (r : Int) - (n / 2 : Nat))) : Int)).sum)
    (n * (1023 * 65535)) fun r _ => by
      have := sum_small (List.range n) (fun (k : Nat) => m.getD (r * n + k) 0 *
        (v (mirrored w ((x : Int) + (k : Int) - (n / 2 : Nat))) (mirrored h ((y : Int) + (r : Int) - (n / 2 : Nat))) : Int)) (1023 * 65535)
        fun k _ => term_small hm hv _ _ _
      rw [List.length_range] at this
      exact this
  rw [List.length_range] at this
  have h2 : n * (n * (1023 * 65535)) ≤ 11 * (11 * (1023 * 65535)) := Nat.mul_le_mul hn (Nat.mul_le_mul_right _ hn)
  exact Nat.le_trans this (by omega)

theorem sumFor_small {arg : Option String} {mode : ConvMode} (hmode : ModeIs arg m.length mode) (w h x y : Nat) :
    (sumFor mode m v w h x y).natAbs ≤ 2 ^ 40 := by
  have hs : Spec.sizeOf m.length ≤ 11 := by unfold Spec.sizeOf; split <;> (try split) <;> (try split) <;> (try split) <;> omega
  cases mode with
  | square => exact box_small hm hv hs w h x y
  | horizontal =>
    rcases hmode with ⟨_, _, h⟩ | ⟨_, hn, _⟩
    · cases h
    · exact row_small hm hv hn w x y
  | vertical =>
    rcases hmode with ⟨_, _, h⟩ | ⟨_, hn, _⟩
    · cases h
    · exact col_small hm hv hn h x y
  | separable =>
    rcases hmode with ⟨_, _, h⟩ | ⟨_, hn, _⟩
    · cases h
    · exact col_small hm hv hn h x y

end

/-! ## Integer clips -/

theorem getMatrix_int {f : VFmt} (ht : f.sampleType = stInteger) {matrix : List Nat} (h : CoeffsOk F f matrix) :
    ∃ m, getMatrix F f matrix = .ok m ∧ CoeffsAre F matrix m := by
  unfold getMatrix
  rw [if_pos ht]
  exact getCoeffs_ok F fun b hb => by
    obtain ⟨q, e, hq⟩ := h b hb
    exact ⟨q, e, hq ht⟩

theorem getMatrix_bad {f : VFmt} {matrix : List Nat} (h : ¬ CoeffsOk F f matrix) : ∃ m, getMatrix F f matrix = .err m := by
  unfold getMatrix
  by_cases ht : f.sampleType = stInteger
  · rw [if_pos ht]
    refine getCoeffs_bad F fun h' => h ?_
    intro b hb
    obtain ⟨q, e, hq⟩ := h' b hb
    exact ⟨q, e, fun _ => hq⟩
  · rw [if_neg ht]
    refine checkCoeffs_bad F fun h' => h ?_
    intro b hb
    obtain ⟨q, e⟩ := h' b hb
    exact ⟨q, e, fun h => absurd h ht⟩

theorem convCreate_eq (al : Nat) {vi : VInfo} {planes : List Int} (hw : Workable vi.format) (hp : PlanesOk planes) {matrix : List Nat}
    {mode : Option String} {md : ConvMode} (hmd : ModeIs mode matrix.length md) {divisor bias : Option Nat} {saturate : Option Int}
    {b d : Rat} {m : List Int} (hb : BiasIs F bias b) (hm : getMatrix F vi.format matrix = .ok m) (hd : DivisorIs F divisor m d) :
    ∃ process, (∀ p : Nat, p < 3 → process.getD p false = decide (Wanted planes p)) ∧
      convCreate F al vi planes matrix mode divisor bias saturate =
        genFinish al "Convolution" vi (radiusH md matrix.length) (radiusV md matrix.length)
          (convKernel F md matrix.length m (inverse F d) b (decide (saturate ≠ some 0)) (maxSample vi.format)
            (fun k => F.floatConv k matrix divisor bias (decide (saturate ≠ some 0)))) process := by
  obtain ⟨process, e, hpr⟩ := planes_ok "Convolution" hp
  refine ⟨process, hpr, ?_⟩
  unfold convCreate
  rw [(workable_iff _).2 hw, if_neg (by decide), getPlanes_eq, e, Res.bind_ok, getBias_ok F hb, Res.bind_ok, getMode_ok hmd, Res.bind_ok,
    hm, Res.bind_ok, getDivisor_ok F hd, Res.bind_ok]

/-- Samples of integer clips before the sums are spelt out. -/
theorem conv_int {al : Nat} (hal : AlignOk al) {c : PClip} (hv : ValidClip al c) {planes : List Int} (hw : Workable c.vi.format)
    (ht : c.vi.format.sampleType = stInteger) (hp : PlanesOk planes) {matrix : List Nat} {mode : Option String} {md : ConvMode}
    (hmd : ModeIs mode matrix.length md) (hm : CoeffsOk F c.vi.format matrix) (hb : ClipFits md matrix.length c.vi planes)
    {divisor bias : Option Nat} (hd : Spec.Finite F divisor) (hbi : Spec.Finite F bias) (saturate : Option Int) :
    ∃ m d b C, CoeffsAre F matrix m ∧ DivisorIs F divisor m d ∧ BiasIs F bias b ∧
      convCreate F al c.vi planes matrix mode divisor bias saturate = .ok C ∧ outInfo C [c] = some c.vi ∧
      ∃ res : Int → Nat, (1 / 2 ^ 127 ≤ rabs d → ∀ a : Int, a.natAbs ≤ 2 ^ 40 →
          ConvResult (top c.vi.format) (decide (saturate ≠ some 0)) d b a (res a)) ∧ (∀ a, res a ≤ 65535) ∧
        ∀ n f, at? c n = some f → (c.vi.width = 0 → FrameFits md matrix.length f planes) →
          Gives al C [c] n f.fmt f.width f.height f.props fun p x y =>
            if Wanted planes p then ((convVal md m res (smp al f p) (f.w p) (f.h p) x y : Nat) : Int) else smp al f p x y := by
  obtain ⟨m, em, hma⟩ := getMatrix_int F ht hm
  obtain ⟨d, hda⟩ := divisor_of F hd m
  obtain ⟨b, hba⟩ := bias_of F hbi
  obtain ⟨process, hpr, e3⟩ := convCreate_eq F al hw hp hmd (saturate := saturate) hba em hda
  obtain ⟨k, C, hk, e4, ho, h⟩ := fits_ok hal hv hw "Convolution" (convKernel F md matrix.length m (inverse F d) b
    (decide (saturate ≠ some 0)) (maxSample c.vi.format) (fun k => F.floatConv k matrix divisor bias (decide (saturate ≠ some 0)))) hpr hb
  obtain ⟨hl, hmb⟩ := coeffs_facts F hma
  obtain ⟨ht1, hk1⟩ := int_kind hk ht
  have hms : maxSample c.vi.format = top c.vi.format := maxSample_eq (hw.2.1 ht)
  have hty : top c.vi.format ≤ typeMax k ∧ typeMax k + 1 = 256 ^ bps c.vi.format := by
    rcases hk1 with ⟨rfl, e, _⟩ | ⟨rfl, e⟩
    · rw [e] at ht1 ⊢
      have : typeMax .byte = 255 := rfl
      omega
    · rw [e] at ht1 ⊢
      have : typeMax .word = 65535 := rfl
      omega
  have hle : ∀ a, convOut F k (inverse F d) b (decide (saturate ≠ some 0)) (top c.vi.format) a ≤ top c.vi.format := by
    intro a
    unfold convOut
    split <;> exact Nat.min_le_right _ _
  have h16 : typeMax k ≤ 65535 := by rcases hk1 with ⟨rfl, _⟩ | ⟨rfl, _⟩ <;> decide
  refine ⟨m, d, b, C, hma, hda, hba, e3.trans e4, ho, convOut F k (inverse F d) b (decide (saturate ≠ some 0)) (top c.vi.format),
    fun hdd a ha => convOut_ok F k hty.1 hdd _ ha, fun a => Nat.le_trans (hle a) (by omega), ?_⟩
  intro n f hf hbf
  have ef := hv.fmt f (at_mem hf) hw.1
  have hcell : ∀ p : Nat, VS.Generic.Spec.Fits md matrix.length (f.w p) (f.h p) → ∀ R x y,
      (∀ cx cy, cx < f.w p → cy < f.h p → R cx cy = .ok (smp al f p cx cy)) → x < f.w p → y < f.h p →
      convKernel F md matrix.length m (inverse F d) b (decide (saturate ≠ some 0)) (maxSample c.vi.format)
        (fun k => F.floatConv k matrix divisor bias (decide (saturate ≠ some 0))) k R (f.w p) (f.h p) x y =
      .ok (convVal md m (convOut F k (inverse F d) b (decide (saturate ≠ some 0)) (top c.vi.format)) (smp al f p) (f.w p) (f.h p) x y) := by
    intro p hfit R x y hR hx hy
    have key : convCell md k m (convOut F k (inverse F d) b (decide (saturate ≠ some 0)) (top c.vi.format)) R (f.w p) (f.h p) x y = .ok _ :=
      convCell_ok (arg := mode) hR (by rcases hk1 with ⟨h, _⟩ | ⟨h, _⟩ <;> simp [h])
        (fun cx cy => by have := smp_lt (al := al) f p cx cy; rw [ef] at this; omega) hmb (by rw [hl]; exact hmd) (by rw [hl]; exact hfit)
        (fun a => Nat.le_trans (hle a) hty.1) hx hy
    rw [hms]
    rcases hk1 with ⟨rfl, _⟩ | ⟨rfl, _⟩ <;> exact key
  have := h n f hf hbf _ hcell
  have hval : ∀ p x y, convVal md m (convOut F k (inverse F d) b (decide (saturate ≠ some 0)) (top c.vi.format)) (smp al f p) (f.w p) (f.h p)
      x y % 256 ^ bps f.fmt =
      convVal md m (convOut F k (inverse F d) b (decide (saturate ≠ some 0)) (top c.vi.format)) (smp al f p) (f.w p) (f.h p) x y := by
    intro p x y
    rw [ef]
    refine Nat.mod_eq_of_lt (Nat.lt_of_le_of_lt ?_ ht1)
    unfold convVal
    split <;> exact hle _
  simp only [hval] at this
  exact this

theorem mode_small {arg : Option String} {n : Nat} (h : ModeIs arg n .separable) : n ≤ 25 := by
  rcases h with ⟨_, _, h⟩ | ⟨_, h, _⟩
  · cases h
  · exact h

/-- C79: with a square, a row or a column as matrix, Convolution gives every sample of the chosen planes the sum of the samples around
it, multiplied by the coefficients, divided by the divisor, plus the bias: rounded and limited to the range of the format. At the
edges the picture is mirrored. Coefficients of integer clips are rounded; without a divisor the sum is divided by the sum of the
coefficients. -/
theorem C79_convolution {al : Nat} (hal : AlignOk al) {c : PClip} (hv : ValidClip al c) {planes : List Int} (hw : Workable c.vi.format)
    (ht : c.vi.format.sampleType = stInteger) (hp : PlanesOk planes) {matrix : List Nat} {mode : Option String} {md : ConvMode}
    (hmd : ModeIs mode matrix.length md) (hsep : md ≠ .separable) (hm : CoeffsOk F c.vi.format matrix)
    (hb : ClipFits md matrix.length c.vi planes) {divisor bias : Option Nat} (hd : Spec.Finite F divisor) (hbi : Spec.Finite F bias)
    (saturate : Option Int) :
    ∃ m d b C, CoeffsAre F matrix m ∧ DivisorIs F divisor m d ∧ BiasIs F bias b ∧
      convCreate F al c.vi planes matrix mode divisor bias saturate = .ok C ∧ outInfo C [c] = some c.vi ∧
      ∃ res : Int → Nat, ∀ n f, at? c n = some f → (c.vi.width = 0 → FrameFits md matrix.length f planes) →
        (1 / 2 ^ 127 ≤ rabs d → ∀ p x y, ConvResult (top f.fmt) (decide (saturate ≠ some 0)) d b
          (sumFor md m (smp al f p) (f.w p) (f.h p) x y) (res (sumFor md m (smp al f p) (f.w p) (f.h p) x y))) ∧
        Gives al C [c] n f.fmt f.width f.height f.props fun p x y =>
          if Wanted planes p then (res (sumFor md m (smp al f p) (f.w p) (f.h p) x y) : Int) else smp al f p x y := by
  obtain ⟨m, d, b, C, h1, h2, h3, h4, h5, res, h6, _, h7⟩ := conv_int F hal hv hw ht hp hmd hm hb hd hbi saturate
  obtain ⟨hl, hmb⟩ := coeffs_facts F h1
  refine ⟨m, d, b, C, h1, h2, h3, h4, h5, res, ?_⟩
  intro n f hf hbf
  have ef := hv.fmt f (at_mem hf) hw.1
  refine ⟨?_, ?_⟩
  · intro hdd p x y
    rw [ef]
    refine h6 hdd _ (sumFor_small hmb ?_ (by rw [hl]; exact hmd) _ _ _ _)
    intro cx cy
    have := smp_lt (al := al) f p cx cy
    have h2 : 256 ^ bps f.fmt ≤ 65536 := by
      obtain ⟨k, _, _, hko⟩ := kind_ok (struct_of hv) hw
      rw [ef]
      rcases (int_kind hko ht).2 with ⟨_, e, _⟩ | ⟨_, e⟩ <;> rw [e] <;> decide
    omega
  · have := h7 n f hf hbf
    cases md with
    | separable => exact absurd rfl hsep
    | square => exact this
    | horizontal => exact this
    | vertical => exact this

/-- C79: with the mode "hv" or "vh" this is done with the matrix as a column, and the result, already rounded and limited, is convolved
with the matrix as a row. -/
theorem C79_separable {al : Nat} (hal : AlignOk al) {c : PClip} (hv : ValidClip al c) {planes : List Int} (hw : Workable c.vi.format)
    (ht : c.vi.format.sampleType = stInteger) (hp : PlanesOk planes) {matrix : List Nat} {mode : Option String}
    (hmd : ModeIs mode matrix.length .separable) (hm : CoeffsOk F c.vi.format matrix)
    (hb : ClipFits .separable matrix.length c.vi planes) {divisor bias : Option Nat} (hd : Spec.Finite F divisor) (hbi : Spec.Finite F bias)
    (saturate : Option Int) :
    ∃ m d b C, CoeffsAre F matrix m ∧ DivisorIs F divisor m d ∧ BiasIs F bias b ∧
      convCreate F al c.vi planes matrix mode divisor bias saturate = .ok C ∧ outInfo C [c] = some c.vi ∧
      ∃ res : Int → Nat, ∀ n f, at? c n = some f → (c.vi.width = 0 → FrameFits .separable matrix.length f planes) →
        ∃ between : Nat → Nat → Nat → Nat, (∀ p x y, between p x y = res (colSum m (smp al f p) (f.h p) x y)) ∧
          (1 / 2 ^ 127 ≤ rabs d → ∀ p x y,
            ConvResult (top f.fmt) (decide (saturate ≠ some 0)) d b (colSum m (smp al f p) (f.h p) x y) (between p x y) ∧
            ConvResult (top f.fmt) (decide (saturate ≠ some 0)) d b (rowSum m (between p) (f.w p) x y)
              (res (rowSum m (between p) (f.w p) x y))) ∧
          Gives al C [c] n f.fmt f.width f.height f.props fun p x y =>
            if Wanted planes p then (res (rowSum m (between p) (f.w p) x y) : Int) else smp al f p x y := by
  obtain ⟨m, d, b, C, h1, h2, h3, h4, h5, res, h6, h16, h7⟩ := conv_int F hal hv hw ht hp hmd hm hb hd hbi saturate
  obtain ⟨hl, hmb⟩ := coeffs_facts F h1
  have hn : m.length ≤ 25 := by rw [hl]; exact mode_small hmd
  refine ⟨m, d, b, C, h1, h2, h3, h4, h5, res, ?_⟩
  intro n f hf hbf
  have ef := hv.fmt f (at_mem hf) hw.1
  refine ⟨fun p x y => res (colSum m (smp al f p) (f.h p) x y), fun _ _ _ => rfl, ?_, h7 n f hf hbf⟩
  intro hdd p x y
  rw [ef]
  refine ⟨h6 hdd _ (col_small hmb ?_ hn _ _ _), h6 hdd _ (row_small hmb (fun _ _ => h16 _) hn _ _ _)⟩
  intro cx cy
  have := smp_lt (al := al) f p cx cy
  have h2 : 256 ^ bps f.fmt ≤ 65536 := by
    obtain ⟨k, _, _, hko⟩ := kind_ok (struct_of hv) hw
    rw [ef]
    rcases (int_kind hko ht).2 with ⟨_, e, _⟩ | ⟨_, e⟩ <;> rw [e] <;> decide
  omega

/-! ## Flat pictures -/

theorem sum_mul (l : List Nat) (g : Nat → Int) (u : Int) : (l.map fun k => g k * u).sum = (l.map g).sum * u := by
  induction l with
  | nil => simp
  | cons a t ih => rw [List.map_cons, List.sum_cons, List.map_cons, List.sum_cons, ih, Int.add_mul]

theorem sum_getD (m : List Int) : ((List.range m.length).map fun k => m.getD k 0).sum = m.sum := by
  rw [← eq_map_getD]

theorem sum_rows (g : Nat → Int) (n : Nat) : ∀ j,
    ((List.range j).map fun r => ((List.range n).map fun k => g (r * n + k)).sum).sum = ((List.range (j * n)).map g).sum := by
  intro j
  induction j with
  | zero => simp
  | succ j ih =>
    rw [List.range_succ, List.map_append, List.sum_append, ih, Nat.add_mul, Nat.one_mul, List.range_add, List.map_append, List.sum_append,
      List.map_map]
    simp [Function.comp_def]

section
variable {m : List Int} {v : Nat → Nat → Nat} {w h u : Nat} (hf : ∀ x y, x < w → y < h → v x y = u)
include hf

theorem row_flat (hw : 0 < w) {y : Nat} (hy : y < h) (x : Nat) : rowSum m v w x y = m.sum * u := by
  unfold rowSum
  rw [← sum_getD m, ← sum_mul]
  congr 1
  refine List.map_congr_left ?_
  intro k _
  rw [hf _ _ (mirrored_lt hw _) hy]

theorem col_flat (hh : 0 < h) {x : Nat} (hx : x < w) (y : Nat) : colSum m v h x y = m.sum * u := by
  unfold colSum
  rw [← sum_getD m, ← sum_mul]
  congr 1
  refine List.map_congr_left ?_
  intro k _
  rw [hf _ _ hx (mirrored_lt hh _)]

theorem box_flat (hw : 0 < w) (hh : 0 < h) {n : Nat} (hn : m.length = n * n) (x y : Nat) : boxSum n m v w h x y = m.sum * u := by
  unfold boxSum
  rw [← sum_getD m, hn, ← sum_rows (fun k => m.getD k 0), ← sum_mul (List.range n)]
  congr 1
  refine List.map_congr_left ?_
  intro r _
  rw [← sum_mul]
  congr 1
  refine List.map_congr_left ?_
  intro k _
  rw [hf _ _ (mirrored_lt hw _) (mirrored_lt hh _)]

theorem sumFor_flat {arg : Option String} {mode : ConvMode} (hmode : ModeIs arg m.length mode) {x y : Nat} (hx : x < w) (hy : y < h) :
    sumFor mode m v w h x y = m.sum * u := by
  cases mode with
  | square =>
    refine box_flat hf (by omega) (by omega) ?_ x y
    rcases hmode with ⟨_, h, _⟩ | ⟨_, _, _, ⟨_, h⟩ | ⟨_, h⟩ | ⟨_, h⟩⟩
    · rcases h with h | h | h | h | h <;> rw [h] <;> rfl
    all_goals cases h
  | horizontal => exact row_flat hf (by omega) hy x
  | vertical => exact col_flat hf (by omega) hx y
  | separable => exact col_flat hf (by omega) hx y

end

theorem flat_result {t u r : Nat} {s : Int} (ht : t ≤ 65535) (hu : u ≤ t) (hs : s ≠ 0) {saturate : Bool}
    (h : ConvResult t saturate (s : Int) 0 (s * u) r) : r = u := by
  obtain ⟨_, h, _⟩ := h
  have hs' : (s : Rat) ≠ 0 := by exact_mod_cast hs
  have hu0 : (0 : Rat) ≤ u := by exact_mod_cast Nat.zero_le u
  have hut : (u : Rat) ≤ t := by exact_mod_cast hu
  have hut' : (u : Rat) ≤ 65535 := by exact_mod_cast Nat.le_trans hu ht
  have e : ((s * u : Int) : Rat) / s = u := by
    push_cast
    grind
  have e2 : scaled (s * u) s 0 saturate = u := by
    unfold scaled
    rw [e]
    unfold rabs
    split <;> grind
  rw [e2, e, rabs_zero] at h
  have e3 : rabs (u : Rat) = u := by unfold rabs; grind
  rw [e3] at h
  have e4 : max 0 (min (u : Rat) t) = u := by grind
  rw [e4] at h
  have h := rabs_le.1 h
  have h1 : (r : Rat) < ((u + 1 : Nat) : Rat) := by push_cast; grind
  have h2 : (u : Rat) < ((r + 1 : Nat) : Rat) := by push_cast; grind
  have h1 : r < u + 1 := by exact_mod_cast h1
  have h2 : u < r + 1 := by exact_mod_cast h2
  omega

theorem int_rabs_ge {s : Int} (hs : s ≠ 0) : 1 / 2 ^ 127 ≤ rabs (s : Rat) := by
  rw [rabs_int]
  have := Rat.intCast_le_intCast.2 (show (1 : Int) ≤ (s.natAbs : Int) by omega)
  have e : ((1 : Int) : Rat) = 1 := rfl
  grind

theorem top_small {f : VFmt} (hw : Workable f) (ht : f.sampleType = stInteger) {al : Nat} {c : PClip} (hv : ValidClip al c)
    (he : c.vi.format = f) : top f ≤ 65535 := by
  subst he
  obtain ⟨k, _, _, hko⟩ := kind_ok (struct_of hv) hw
  obtain ⟨h1, ⟨_, e, _⟩ | ⟨_, e⟩⟩ := int_kind hko ht <;> rw [e] at h1 <;> omega

/-- C79: a picture whose samples are all equal isn't changed if no divisor and no bias are given and the sum of the coefficients isn't
zero, in all modes. -/
theorem C79_flat {al : Nat} (hal : AlignOk al) {c : PClip} (hv : ValidClip al c) {planes : List Int} (hw : Workable c.vi.format)
    (ht : c.vi.format.sampleType = stInteger) (hp : PlanesOk planes) {matrix : List Nat} {mode : Option String} {md : ConvMode}
    (hmd : ModeIs mode matrix.length md) (hm : CoeffsOk F c.vi.format matrix) (hs : ∀ m, CoeffsAre F matrix m → m.sum ≠ 0)
    (hb : ClipFits md matrix.length c.vi planes) (saturate : Option Int) :
    ∃ C, convCreate F al c.vi planes matrix mode none none saturate = .ok C ∧ outInfo C [c] = some c.vi ∧
      ∀ n f, at? c n = some f → (c.vi.width = 0 → FrameFits md matrix.length f planes) →
        ∀ u : Nat → Nat, (∀ p, Wanted planes p → u p ≤ top f.fmt) → (∀ p x y, Wanted planes p → x < f.w p → y < f.h p → smp al f p x y = u p) →
          Gives al C [c] n f.fmt f.width f.height f.props fun p x y => smp al f p x y := by
  obtain ⟨m, d, b, C, h1, h2, h3, h4, h5, res, h6, h16, h7⟩ := conv_int F hal hv hw ht hp hmd hm hb (divisor := none) (bias := none)
    (fun _ h => by cases h) (fun _ h => by cases h) saturate
  obtain ⟨hl, hmb⟩ := coeffs_facts F h1
  have hs := hs m h1
  refine ⟨C, h4, h5, ?_⟩
  intro n f hf hbf u hu hflat junk
  have ef := hv.fmt f (at_mem hf) hw.1
  have hb0 : b = 0 := by
    rcases h3 with ⟨_, h⟩ | ⟨_, h, _⟩
    · exact h
    · cases h
  have hd0 : d = ((m.sum : Int) : Rat) := by
    rcases h2 with ⟨_, h⟩ | ⟨_, h, _⟩
    · rw [h, if_neg hs]
    · cases h
  subst hb0 hd0
  have ht16 := top_small hw ht hv rfl
  have hsum : ∀ u : Nat, u ≤ top c.vi.format → (m.sum * (u : Int)).natAbs ≤ 2 ^ 40 → res (m.sum * u) = u := fun u hu hsm =>
    flat_result ht16 hu hs (h6 (int_rabs_ge hs) _ hsm)
  obtain ⟨g, a1, a2, a3, a4, a5, a6, a7⟩ := h7 n f hf hbf junk
  refine ⟨g, a1, a2, a3, a4, a5, a6, ?_⟩
  intro p x y hpl hx hy
  rw [a7 p x y hpl hx hy]
  dsimp only
  by_cases hwp : Wanted planes p
  · rw [if_pos hwp]
    rw [w_eq a3 a4] at hx
    rw [h_eq a3 a5] at hy
    have hup := hu p hwp
    rw [ef] at hup
    have hfl : ∀ x y, x < f.w p → y < f.h p → smp al f p x y = u p := fun x y hx hy => hflat p x y hwp hx hy
    have hmd' : ModeIs mode m.length md := by rw [hl]; exact hmd
    have hsm : (m.sum * ((u p : Nat) : Int)).natAbs ≤ 2 ^ 40 := by
      rw [← sumFor_flat (m := m) (v := fun _ _ => u p) (w := 1) (h := 1) (fun _ _ _ _ => rfl) hmd' (x := 0) (y := 0) (by omega) (by omega)]
      exact sumFor_small hmb (fun _ _ => by omega) hmd' _ _ _ _
    have hr := hsum (u p) hup hsm
    rw [hfl x y hx hy]
    cases md with
    | separable =>
      show ((res (rowSum m (fun cx cy => res (colSum m (smp al f p) (f.h p) cx cy)) (f.w p) x y) : Nat) : Int) = _
      rw [row_flat (h := f.h p) (u := u p) (fun cx cy hcx hcy => by rw [col_flat hfl (by omega) hcx, hr]) (by omega) hy, hr]
    | square =>
      show ((res (sumFor .square m (smp al f p) (f.w p) (f.h p) x y) : Nat) : Int) = _
      rw [sumFor_flat hfl hmd' hx hy, hr]
    | horizontal =>
      show ((res (sumFor .horizontal m (smp al f p) (f.w p) (f.h p) x y) : Nat) : Int) = _
      rw [sumFor_flat hfl hmd' hx hy, hr]
    | vertical =>
      show ((res (sumFor .vertical m (smp al f p) (f.w p) (f.h p) x y) : Nat) : Int) = _
      rw [sumFor_flat hfl hmd' hx hy, hr]
  · rw [if_neg hwp]

/-! ## Float clips -/

/-- The value of a sample of a float clip. -/
def convValF (mode : ConvMode) (n : Nat) (out : List Nat → Nat) (v : Nat → Nat → Nat) (w h x y : Nat) : Nat :=
  match mode with
  | .separable => out (under .horizontal n (fun cx cy => out (under .vertical n v w h cx cy)) w h x y)
  | mode => out (under mode n v w h x y)

section
variable {R : Nat → Nat → Res Nat} {v : Nat → Nat → Nat} {w h : Nat} (hR : ∀ cx cy, cx < w → cy < h → R cx cy = .ok (v cx cy))
include hR

theorem read_h {n : Nat} (ho : n % 2 = 1) (hw : n / 2 < w) {x y : Nat} (hx : x < w) (hy : y < h) :
    readAll R (hTaps n w x y) = .ok (under .horizontal n v w h x y) := by
  have e : hTaps n w x y = (List.range n).map fun (k : Nat) => (mirrored w ((x : Int) + (k : Int) - (n / 2 : Nat)), y) := by
    unfold hTaps
    refine List.map_congr_left ?_
    intro k hk
    rw [hIndex_eq hw hx (by have := List.mem_range.1 hk; omega)]
  rw [e, readAll_ok hR _ ?_, List.map_map]
  · rfl
  · intro c hc
    obtain ⟨k, _, rfl⟩ := List.mem_map.1 hc
    exact ⟨mirrored_lt (by omega) _, hy⟩

theorem read_v {n : Nat} (ho : n % 2 = 1) (hh : n / 2 < h) {x y : Nat} (hx : x < w) (hy : y < h) :
    readAll R (vTaps n h x y) = .ok (under .vertical n v w h x y) := by
  have e : vTaps n h x y = (List.range n).map fun (k : Nat) => (x, mirrored h ((y : Int) + (k : Int) - (n / 2 : Nat))) := by
    unfold vTaps
    refine List.map_congr_left ?_
    intro k hk
    rw [vIndex_eq hh hy (by have := List.mem_range.1 hk; omega)]
  rw [e, readAll_ok hR _ ?_, List.map_map]
  · rfl
  · intro c hc
    obtain ⟨k, _, rfl⟩ := List.mem_map.1 hc
    exact ⟨hx, mirrored_lt (by omega) _⟩

theorem read_s {n : Nat} (hn : n = 9 ∨ n = 25 ∨ n = 49 ∨ n = 81 ∨ n = 121) (hw : 2 ≤ w) (hh : 2 ≤ h) {x y : Nat} (hx : x < w) (hy : y < h) :
    readAll R (if n = 9 then taps3 w h x y else squareTaps (side n) w h x y) = .ok (under .square n v w h x y) := by
  unfold under
  dsimp only
  by_cases h9 : n = 9
  · rw [if_pos h9, if_pos h9]
    obtain ⟨r0, r1, r2⟩ := row3_eq hh hy
    obtain ⟨c0, c1, c2⟩ := col3_eq hw hx
    rw [readAll_ok hR _ ?_]
    · unfold taps3
      rw [r0, r1, r2, c0, c1, c2]
      have mw : ∀ j : Int, -1 ≤ j → j ≤ 1 → mirrored w (x + j) = nearest w (x + j) := fun j a b => mirrored_near hx (by omega) (by omega)
      have mh : ∀ j : Int, -1 ≤ j → j ≤ 1 → mirrored h (y + j) = nearest h (y + j) := fun j a b => mirrored_near hy (by omega) (by omega)
      have er : List.range 3 = [0, 1, 2] := rfl
      rw [er]
      have e0 : ∀ x : Nat, (x : Int) + ((0 : Nat) : Int) - 1 = x + -1 := by intro x; omega
      have e1 : ∀ x : Nat, (x : Int) + ((1 : Nat) : Int) - 1 = x + 0 := by intro x; omega
      have e2 : ∀ x : Nat, (x : Int) + ((2 : Nat) : Int) - 1 = x + 1 := by intro x; omega
      simp only [List.map_cons, List.map_nil, List.flatMap_cons, List.flatMap_nil, List.cons_append, List.nil_append, e0, e1, e2,
        mw (-1) (by omega) (by omega), mw 0 (by omega) (by omega), mw 1 (by omega) (by omega), mh (-1) (by omega) (by omega),
        mh 0 (by omega) (by omega), mh 1 (by omega) (by omega)]
    · unfold taps3
      rw [r0, r1, r2, c0, c1, c2]
      have := fun i => nearest_lt (n := w) (by omega) i
      have := fun i => nearest_lt (n := h) (by omega) i
      simp only [List.mem_cons, List.not_mem_nil, or_false]
      rintro c (rfl | rfl | rfl | rfl | rfl | rfl | rfl | rfl | rfl) <;> exact ⟨by simp [*], by simp [*]⟩
  · rw [if_neg h9, if_neg h9]
    have hside : side n = Spec.sizeOf n := by
      unfold side Spec.sizeOf
      rw [if_neg h9]
    rw [hside]
    have hodd : Spec.sizeOf n % 2 = 1 := by rcases hn with rfl | rfl | rfl | rfl | rfl <;> rfl
    generalize Spec.sizeOf n = n at *
    have e : squareTaps n w h x y = (List.range n).flatMap fun (k : Nat) => (List.range n).map fun (r : Nat) =>
        (mirrored w ((x : Int) + (k : Int) - (n / 2 : Nat)), mirrored h ((y : Int) + (r : Int) - (n / 2 : Nat))) := by
      unfold squareTaps
      rw [List.flatMap_def, List.flatMap_def]
      congr 1
      refine List.map_congr_left ?_
      intro k hk
      refine List.map_congr_left ?_
      intro r _
      rw [squareCol_eq hodd hx (List.mem_range.1 hk), mirrorIndex_eq (by omega)]
    rw [e, readAll_ok hR _ ?_, List.map_flatMap]
    · simp only [List.map_map]
      rfl
    · intro c hc
      obtain ⟨k, _, hc⟩ := List.mem_flatMap.1 hc
      obtain ⟨r, _, rfl⟩ := List.mem_map.1 hc
      exact ⟨mirrored_lt (by omega) _, mirrored_lt (by omega) _⟩

theorem convCellF_ok {arg : Option String} {mode : ConvMode} {n : Nat} (hmode : ModeIs arg n mode) (hf : VS.Generic.Spec.Fits mode n w h)
    (out : List Nat → Nat) {x y : Nat} (hx : x < w) (hy : y < h) :
    convCellF mode n out R w h x y = .ok (convValF mode n out v w h x y) := by
  obtain ⟨f1, f2, f3, f4⟩ := hf
  cases mode with
  | square =>
    have hn : n = 9 ∨ n = 25 ∨ n = 49 ∨ n = 81 ∨ n = 121 := by
      rcases hmode with ⟨_, h, _⟩ | ⟨_, _, _, ⟨_, h⟩ | ⟨_, h⟩ | ⟨_, h⟩⟩
      · exact h
      all_goals cases h
    unfold convCellF
    dsimp only
    rw [read_s hR hn (by omega) (by omega) hx hy, Res.bind_ok]
    rfl
  | horizontal =>
    have ho : n % 2 = 1 := by
      rcases hmode with ⟨_, _, h⟩ | ⟨_, _, h', _⟩
      · cases h
      · exact h'
    unfold convCellF
    dsimp only
    rw [read_h hR ho (by have := f3 (Or.inl rfl); omega) hx hy, Res.bind_ok]
    rfl
  | vertical =>
    have ho : n % 2 = 1 := by
      rcases hmode with ⟨_, _, h⟩ | ⟨_, _, h', _⟩
      · cases h
      · exact h'
    unfold convCellF
    dsimp only
    rw [read_v hR ho (by have := f4 (Or.inl rfl); omega) hx hy, Res.bind_ok]
    rfl
  | separable =>
    have ho : n % 2 = 1 := by
      rcases hmode with ⟨_, _, h⟩ | ⟨_, _, h', _⟩
      · cases h
      · exact h'
    unfold convCellF
    dsimp only
    rw [read_h (v := fun cx cy => out (under .vertical n v w h cx cy)) (h := h) ?_ ho (by have := f3 (Or.inr rfl); omega) hx hy, Res.bind_ok]
    · rfl
    · intro cx cy hcx hcy
      rw [read_v hR ho (by have := f4 (Or.inr rfl); omega) hcx hcy, Res.bind_ok]

end

/-- C79: for float clips the result is computed from the samples under the matrix in the same way, with the arithmetic of floats: in the
separable mode from the results of the columns. -/
theorem C79_float {al : Nat} (hal : AlignOk al) {c : PClip} (hv : ValidClip al c) {planes : List Int} (hw : Workable c.vi.format)
    (ht : c.vi.format.sampleType = stFloat) (hp : PlanesOk planes) {matrix : List Nat} {mode : Option String} {md : ConvMode}
    (hmd : ModeIs mode matrix.length md) (hm : CoeffsOk F c.vi.format matrix) (hb : ClipFits md matrix.length c.vi planes)
    {divisor bias : Option Nat} (hd : Spec.Finite F divisor) (hbi : Spec.Finite F bias) (saturate : Option Int) :
    ∃ C, convCreate F al c.vi planes matrix mode divisor bias saturate = .ok C ∧ outInfo C [c] = some c.vi ∧
      ∀ n f, at? c n = some f → (c.vi.width = 0 → FrameFits md matrix.length f planes) →
        ∃ out : List Nat → Nat, (∀ l, out l = F.floatConv (floatKind f.fmt) matrix divisor bias (decide (saturate ≠ some 0)) l) ∧
          Gives al C [c] n f.fmt f.width f.height f.props fun p x y =>
            if Wanted planes p then
              (((if md = .separable then
                  out (under .horizontal matrix.length (fun cx cy => out (under .vertical matrix.length (smp al f p) (f.w p) (f.h p) cx cy))
                    (f.w p) (f.h p) x y)
                else out (under md matrix.length (smp al f p) (f.w p) (f.h p) x y)) % 256 ^ bps f.fmt : Nat) : Int)
            else smp al f p x y := by
  have em : getMatrix F c.vi.format matrix = .ok [] := by
    unfold getMatrix
    rw [if_neg (by rw [ht]; decide)]
    exact checkCoeffs_ok F fun b hb => by
      obtain ⟨q, e, _⟩ := hm b hb
      exact ⟨q, e⟩
  obtain ⟨d, hda⟩ := divisor_of F hd []
  obtain ⟨b, hba⟩ := bias_of F hbi
  obtain ⟨process, hpr, e3⟩ := convCreate_eq F al hw hp hmd (saturate := saturate) hba em hda
  obtain ⟨k, C, hk, e4, ho, h⟩ := fits_ok hal hv hw "Convolution" (convKernel F md matrix.length [] (inverse F d) b
    (decide (saturate ≠ some 0)) (maxSample c.vi.format) (fun k => F.floatConv k matrix divisor bias (decide (saturate ≠ some 0)))) hpr hb
  obtain ⟨ht1, hk1⟩ := float_kind hk ht
  refine ⟨C, e3.trans e4, ho, ?_⟩
  intro n f hf hbf
  have ef := hv.fmt f (at_mem hf) hw.1
  refine ⟨_, fun _ => rfl, ?_⟩
  have := h n f hf hbf (fun p x y => convValF md matrix.length (F.floatConv k matrix divisor bias (decide (saturate ≠ some 0)))
    (smp al f p) (f.w p) (f.h p) x y) (by
      intro p hfit R x y hR hx hy
      have key := convCellF_ok hR hmd hfit (F.floatConv k matrix divisor bias (decide (saturate ≠ some 0))) hx hy
      rcases hk1 with rfl | rfl <;> exact key)
  rw [ef, ← ht1]
  rw [ef] at this
  cases md with
  | separable => exact this
  | square => exact this
  | horizontal => exact this
  | vertical => exact this

/-! ## Errors -/

/-- C79: everything else is refused: formats, planes, matrices of other sizes, coefficients that are too large or infinite, other modes,
infinite arguments and planes that are smaller than 4 x 4 or not larger than the radius of the matrix. -/
theorem C79_refused {al : Nat} {c : PClip} (hv : ValidClip al c) {planes : List Int} {matrix : List Nat} {mode : Option String}
    {divisor bias : Option Nat} {saturate : Option Int}
    (h : ¬ Workable c.vi.format ∨ ¬ PlanesOk planes ∨ (∀ md, ¬ ModeIs mode matrix.length md) ∨ ¬ CoeffsOk F c.vi.format matrix ∨
      ¬ Spec.Finite F divisor ∨ ¬ Spec.Finite F bias ∨ ∃ md, ModeIs mode matrix.length md ∧ ¬ ClipFits md matrix.length c.vi planes) :
    ∃ m, convCreate F al c.vi planes matrix mode divisor bias saturate = .err m := by
  unfold convCreate
  by_cases hw : ¬ Workable c.vi.format
  · rw [not_workable hw]
    exact ⟨_, rfl⟩
  have hw := Classical.not_not.1 hw
  rw [(workable_iff _).2 hw, if_neg (by decide), getPlanes_eq]
  by_cases hp : ¬ PlanesOk planes
  · obtain ⟨m, e⟩ := planes_bad "Convolution" hp
    rw [e]
    exact ⟨m, rfl⟩
  have hp := Classical.not_not.1 hp
  obtain ⟨process, e, hpr⟩ := planes_ok "Convolution" hp
  rw [e, Res.bind_ok]
  by_cases hbi : ¬ Spec.Finite F bias
  · obtain ⟨m, e⟩ := getBias_bad F hbi
    rw [e]
    exact ⟨m, rfl⟩
  have hbi := Classical.not_not.1 hbi
  obtain ⟨b, hba⟩ := bias_of F hbi
  rw [getBias_ok F hba, Res.bind_ok]
  by_cases hmd : ∀ md, ¬ ModeIs mode matrix.length md
  · obtain ⟨m, e⟩ := getMode_bad hmd
    rw [e]
    exact ⟨m, rfl⟩
  obtain ⟨md, hmd⟩ := Classical.not_forall.1 hmd
  have hmd := Classical.not_not.1 hmd
  rw [getMode_ok hmd, Res.bind_ok]
  by_cases hm : ¬ CoeffsOk F c.vi.format matrix
  · obtain ⟨m, e⟩ := getMatrix_bad F hm
    rw [e]
    exact ⟨m, rfl⟩
  have hm := Classical.not_not.1 hm
  obtain ⟨m, em⟩ : ∃ m, getMatrix F c.vi.format matrix = .ok m := by
    by_cases ht : c.vi.format.sampleType = stInteger
    · obtain ⟨m, em, _⟩ := getMatrix_int F ht hm
      exact ⟨m, em⟩
    · refine ⟨[], ?_⟩
      unfold getMatrix
      rw [if_neg ht]
      exact checkCoeffs_ok F fun b hb => by
        obtain ⟨q, e, _⟩ := hm b hb
        exact ⟨q, e⟩
  rw [em, Res.bind_ok]
  by_cases hd : ¬ Spec.Finite F divisor
  · obtain ⟨e, he⟩ := getDivisor_bad F m hd
    rw [he]
    exact ⟨e, rfl⟩
  have hd := Classical.not_not.1 hd
  obtain ⟨d, hda⟩ := divisor_of F hd m
  rw [getDivisor_ok F hda, Res.bind_ok]
  refine fits_bad hv hw _ _ hpr ?_
  rcases h with h | h | h | h | h | h | ⟨md', h1, h2⟩
  · exact absurd hw h
  · exact absurd hp h
  · exact absurd hmd (h md)
  · exact absurd hm h
  · exact absurd hd h
  · exact absurd hbi h
  · have e := getMode_ok hmd
    rw [getMode_ok h1] at e
    injection e with e
    exact e ▸ h2

/-- C79: for clips with frames of different sizes, frames that are too small are errors. -/
theorem C79_frame_refused {al : Nat} {c : PClip} (hv : ValidClip al c) {planes : List Int} {matrix : List Nat} {mode : Option String}
    {md : ConvMode} (hmd : ModeIs mode matrix.length md) {divisor bias : Option Nat} {saturate : Option Int} {C : Created}
    (hC : convCreate F al c.vi planes matrix mode divisor bias saturate = .ok C) {n : Nat} {f : Frm}
    (hf : at? c n = some f) (h0 : c.vi.width = 0) (hd : ¬ FrameFits md matrix.length f planes) (junk : Junk) :
    ∃ m, C.frame [c] n junk = .err m := by
  unfold convCreate at hC
  split at hC
  · cases hC
  · obtain ⟨process, e, hC⟩ := bind_eq_ok hC
    obtain ⟨_, _, hC⟩ := bind_eq_ok hC
    rw [getMode_ok hmd, Res.bind_ok] at hC
    obtain ⟨_, _, hC⟩ := bind_eq_ok hC
    obtain ⟨_, _, hC⟩ := bind_eq_ok hC
    unfold genFinish at hC
    rw [if_neg (by omega)] at hC
    dsimp only at hC
    split at hC
    · cases hC
    · obtain ⟨rfl, _⟩ := create_eq_ok hC
      refine gen_small hv (planes_inv e) hf (Or.inl h0) ?_ junk
      refine Classical.byContradiction fun hc => hd ?_
      intro p hp hwp
      refine Classical.byContradiction fun hn => hc ⟨p, hp, hwp, fun e => hn (checkDims_fits.1 e)⟩

/-! ## Examples -/

theorem rounds_int {z c : Int} (h : RoundsTo z c) : c = z := by
  have h := rabs_le.1 h.1
  have h1 : (z : Rat) < ((c + 1 : Int) : Rat) := by push_cast; grind
  have h2 : (c : Rat) < ((z + 1 : Int) : Rat) := by push_cast; grind
  have h1 := Rat.intCast_lt_intCast.1 h1
  have h2 := Rat.intCast_lt_intCast.1 h2
  omega

/-- Coefficients that are integers. -/
theorem coeffs_ints {matrix : List Nat} {l : List Int} (he : matrix.map F.value = l.map fun (c : Int) => some (c : Rat)) {m : List Int}
    (h : CoeffsAre F matrix m) : m = l := by
  induction matrix generalizing m l with
  | nil =>
    cases l with
    | nil =>
      cases m with
      | nil => rfl
      | cons _ _ => exact absurd h id
    | cons _ _ => cases he
  | cons b t ih =>
    cases l with
    | nil => cases he
    | cons z l =>
      cases m with
      | nil => exact absurd h id
      | cons c m =>
        obtain ⟨⟨q, e, hr, _⟩, ht⟩ := h
        rw [List.map_cons, List.map_cons] at he
        injection he with e1 e2
        rw [e] at e1
        injection e1 with e1
        rw [e1] at hr
        rw [rounds_int hr, ih e2 ht]

/-- The coefficients 0 and 1 as arguments. -/
def corner : List Nat := [1000, 1000, 1000, 1000, 1000, 1000, 1000, 1000, 1002]

theorem corner_value : corner.map exFloats.value = [0, 0, 0, 0, 0, 0, 0, 0, 1].map fun (c : Int) => some (c : Rat) := by decide +kernel

theorem corner_ok : CoeffsOk exFloats gray8 corner := by
  unfold CoeffsOk corner
  have h0 : exFloats.value 1000 = some 0 := by decide +kernel
  have h1 : exFloats.value 1002 = some 1 := by decide +kernel
  have r0 : rabs 0 < 1023 + 1 / 2 := by decide +kernel
  have r1 : rabs 1 < 1023 + 1 / 2 := by decide +kernel
  simp only [List.mem_cons, List.not_mem_nil, or_false]
  rintro b (rfl | rfl | rfl | rfl | rfl | rfl | rfl | rfl | rfl) <;> first | exact ⟨0, h0, fun _ => r0⟩ | exact ⟨1, h1, fun _ => r1⟩

/-- C79: a matrix with its only coefficient in the corner moves the picture: the bright sample to the sample before it. -/
example : ∃ C g, convCreate exFloats 32 (clip1 gray8 4 4 dot Dict.empty).vi [] corner none none none none = .ok C ∧
    C.frame [clip1 gray8 4 4 dot Dict.empty] 0 (fun _ _ => 0) = .ok g ∧
    smp 32 g 0 0 0 = smp 32 (mkFrame 32 gray8 4 4 dot Dict.empty) 0 1 1 ∧ smp 32 g 0 0 0 = 200 := by
  obtain ⟨m, d, b, C, h1, h2, h3, e, _, res, h'⟩ := C79_convolution exFloats (Or.inl rfl) (clip1_valid gray8_44 dot Dict.empty)
    (planes := []) gray8_work rfl (by decide) (matrix := corner) (mode := none) (md := .square)
    (Or.inl ⟨Or.inl rfl, Or.inl rfl, rfl⟩) (by decide) corner_ok
    (by
      intro _ p hp _
      have : p = 0 := by
        have : (p : Int) < 1 := hp
        omega
      subst this
      refine ⟨by decide, by decide, ?_, ?_⟩ <;> rintro (h | h) <;> cases h)
    (divisor := none) (bias := none) (fun _ h => by cases h) (fun _ h => by cases h) none
  have hm := coeffs_ints exFloats corner_value h1
  subst hm
  have hb0 : b = 0 := by
    rcases h3 with ⟨_, h⟩ | ⟨_, h, _⟩
    · exact h
    · cases h
  have hd0 : d = 1 := by
    rcases h2 with ⟨_, h⟩ | ⟨_, h, _⟩
    · rw [h]; rfl
    · cases h
  subst hb0 hd0
  obtain ⟨k1, k2⟩ := h' 0 _ (clip1_at _ _ _ _ _ _) (fun h => absurd h (by decide))
  obtain ⟨_, _, k1⟩ := k1 (by decide +kernel) 0 0 0
  obtain ⟨g, e', _, g1, g2, g3, _, g5⟩ := k2 (fun _ _ => 0)
  have hg := g5 0 0 0 (by decide) (by rw [w_eq g1 g2]; decide) (by rw [h_eq g1 g3]; decide)
  dsimp only at hg
  rw [if_pos (by decide)] at hg
  have es : sumFor .square [0, 0, 0, 0, 0, 0, 0, 0, 1] (smp 32 (mkFrame 32 gray8 4 4 dot Dict.empty) 0) ((mkFrame 32 gray8 4 4 dot Dict.empty).w 0)
    ((mkFrame 32 gray8 4 4 dot Dict.empty).h 0) 0 0 = 200 := by decide +kernel
  have es2 : smp 32 (mkFrame 32 gray8 4 4 dot Dict.empty) 0 1 1 = 200 := by decide +kernel
  rw [es] at k1 hg
  have k1 := k1 0 rfl rfl (by decide) (by decide)
  have et : top (mkFrame 32 gray8 4 4 dot Dict.empty).fmt = 255 := by decide
  rw [et] at k1
  rw [k1] at hg
  have hg : (smp 32 g 0 0 0 : Int) = 200 := hg
  exact ⟨C, g, e, e', by omega, by omega⟩

/-- C79: the flat part of the hypotheses of `C79_flat`. -/
example : ∀ m, CoeffsAre exFloats corner m → m.sum ≠ 0 := by
  intro m h
  rw [coeffs_ints exFloats corner_value h]
  decide

/-- C79: a matrix with ten elements is refused. -/
example : ∃ m, convCreate exFloats 32 (clip1 gray8 4 4 dot Dict.empty).vi [] (1000 :: corner) none none none none = .err m :=
  C79_refused exFloats (clip1_valid gray8_44 dot Dict.empty) (Or.inr (Or.inr (Or.inl (by
    intro md h
    rcases h with ⟨_, h, _⟩ | ⟨_, _, h, _⟩
    · have : (1000 :: corner).length = 10 := rfl
      omega
    · exact absurd h (by decide)))))

end VS.Generic
