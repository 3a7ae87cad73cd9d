import Verif.Generic.Lemmas3
import Verif.Point.Example

/-! # C76, C77, C78 and C80: Minimum, Maximum, Median, Deflate, Inflate, Prewitt and Sobel -/

namespace VS.Generic
open VS VS.Format VS.Map VS.Map.Spec VS.Pix VS.Pix.Spec VS.Point VS.Point.Spec VS.Pixel VS.Pixel.Spec VS.Generic.Spec

variable (F : Floats)

/-! ## Minimum and Maximum -/

theorem minMaxCreate_eq (al : Nat) (mx : Bool) {vi : VInfo} {planes : List Int} {threshold : Option Nat} {coords : Option (List Int)}
    (hw : Workable vi.format) (hp : PlanesOk planes) {th st : Nat}
    (ht : getThreshold F (if mx then "Maximum" else "Minimum") vi.format threshold = .ok th)
    (hs : getStencil (if mx then "Maximum" else "Minimum") coords = .ok st) :
    ∃ process, (∀ p : Nat, p < 3 → process.getD p false = decide (Wanted planes p)) ∧
      minMaxCreate F al mx vi planes threshold coords = genFinish al (if mx then "Maximum" else "Minimum") vi none none
        (kernel3 F (if mx then .maximum else .minimum) (maxSample vi.format) (fun _ => minMaxOp mx th st) threshold st) process := by
  obtain ⟨process, e, hpr⟩ := planes_ok (if mx then "Maximum" else "Minimum") hp
  refine ⟨process, hpr, ?_⟩
  unfold minMaxCreate
  dsimp only
  rw [(workable_iff _).2 hw, if_neg (by decide), getPlanes_eq, e, Res.bind_ok, ht, Res.bind_ok, hs, Res.bind_ok]

/-- C76: Minimum gives every sample of the chosen planes the least value of itself and the neighbours chosen by `coordinates`, but
lowers it by at most the threshold. Outside of the picture the samples at the border count. -/
theorem C76_minimum {al : Nat} (hal : AlignOk al) {c : PClip} (hv : ValidClip al c) {planes : List Int} (hw : Workable c.vi.format)
    (ht : c.vi.format.sampleType = stInteger) (hp : PlanesOk planes) (hb : BigClip c.vi planes) {threshold : Option Nat}
    (hth : ThresholdOk F c.vi.format threshold) {coords : Option (List Int)} (hc : CoordsOk coords) :
    ∃ t C, ThresholdIs F c.vi.format threshold t ∧ minMaxCreate F al false c.vi planes threshold coords = .ok C ∧
      outInfo C [c] = some c.vi ∧ ∀ n f, at? c n = some f → (c.vi.width = 0 → BigFrame f planes) →
        Gives al C [c] n f.fmt f.width f.height f.props fun p x y =>
          if Wanted planes p then
            min (top f.fmt) (max ((chosen coords (smp al f p) (f.w p) (f.h p) x y).min?.getD 0 : Int) (smp al f p x y - t))
          else smp al f p x y := by
  obtain ⟨t, e1, h1⟩ := threshold_ok F "Minimum" ht (hw.2.1 ht) hth
  obtain ⟨s, e2, h2⟩ := stencil_ok "Minimum" hc
  obtain ⟨process, hpr, e3⟩ := minMaxCreate_eq F al false hw hp e1 e2
  obtain ⟨k, C, _, e4, ho, h⟩ := three_int F hal hv hw ht "Minimum" .minimum (fun _ => minMaxOp false t s) threshold s hpr hb
  refine ⟨t, C, h1, e3.trans e4, ho, ?_⟩
  intro n f hf hbf junk
  obtain ⟨g, a, b, c1, c2, c3, c4, c5⟩ := h n f hf hbf junk
  refine ⟨g, a, b, c1, c2, c3, c4, ?_⟩
  intro p x y hpl hx hy
  rw [c5 p x y hpl hx hy]
  dsimp only
  rw [(minMax_eq h2 t _ _ _ _ _).1]
  split
  · omega
  · rfl

/-- C76: Maximum gives every sample of the chosen planes the greatest value of itself and the chosen neighbours, but raises it by at
most the threshold. -/
theorem C76_maximum {al : Nat} (hal : AlignOk al) {c : PClip} (hv : ValidClip al c) {planes : List Int} (hw : Workable c.vi.format)
    (ht : c.vi.format.sampleType = stInteger) (hp : PlanesOk planes) (hb : BigClip c.vi planes) {threshold : Option Nat}
    (hth : ThresholdOk F c.vi.format threshold) {coords : Option (List Int)} (hc : CoordsOk coords) :
    ∃ t C, ThresholdIs F c.vi.format threshold t ∧ minMaxCreate F al true c.vi planes threshold coords = .ok C ∧
      outInfo C [c] = some c.vi ∧ ∀ n f, at? c n = some f → (c.vi.width = 0 → BigFrame f planes) →
        Gives al C [c] n f.fmt f.width f.height f.props fun p x y =>
          if Wanted planes p then
            min (top f.fmt) (min ((chosen coords (smp al f p) (f.w p) (f.h p) x y).max?.getD 0 : Int) (smp al f p x y + t))
          else smp al f p x y := by
  obtain ⟨t, e1, h1⟩ := threshold_ok F "Maximum" ht (hw.2.1 ht) hth
  obtain ⟨s, e2, h2⟩ := stencil_ok "Maximum" hc
  obtain ⟨process, hpr, e3⟩ := minMaxCreate_eq F al true hw hp e1 e2
  obtain ⟨k, C, _, e4, ho, h⟩ := three_int F hal hv hw ht "Maximum" .maximum (fun _ => minMaxOp true t s) threshold s hpr hb
  refine ⟨t, C, h1, e3.trans e4, ho, ?_⟩
  intro n f hf hbf junk
  obtain ⟨g, a, b, c1, c2, c3, c4, c5⟩ := h n f hf hbf junk
  refine ⟨g, a, b, c1, c2, c3, c4, ?_⟩
  intro p x y hpl hx hy
  rw [c5 p x y hpl hx hy]
  dsimp only
  rw [(minMax_eq h2 t _ _ _ _ _).2]
  split
  · omega
  · rfl

/-- C76: for floats the result depends on the nine samples, the threshold and the chosen neighbours alone. -/
theorem C76_float {al : Nat} (hal : AlignOk al) {c : PClip} (hv : ValidClip al c) {planes : List Int} (hw : Workable c.vi.format)
    (ht : c.vi.format.sampleType = stFloat) (hp : PlanesOk planes) (hb : BigClip c.vi planes) {threshold : Option Nat}
    (hth : ∀ b, threshold = some b → ∃ q, single F b = some q ∧ 0 ≤ q) {coords : Option (List Int)} (hc : CoordsOk coords) (mx : Bool) :
    ∃ s C, (∀ i, i < 8 → s.testBit i = decide (Enabled coords i)) ∧ minMaxCreate F al mx c.vi planes threshold coords = .ok C ∧
      outInfo C [c] = some c.vi ∧ ∀ n f, at? c n = some f → (c.vi.width = 0 → BigFrame f planes) →
        Gives al C [c] n f.fmt f.width f.height f.props fun p x y =>
          if Wanted planes p then
            ((F.float3 (if mx then .maximum else .minimum) (floatKind f.fmt) threshold s (rows9 (smp al f p) (f.w p) (f.h p) x y)
              % 256 ^ bps f.fmt : Nat) : Int)
          else smp al f p x y := by
  obtain ⟨t, e1⟩ := (threshold_float F (if mx then "Maximum" else "Minimum") ht threshold).1 hth
  obtain ⟨s, e2, h2⟩ := stencil_ok (if mx then "Maximum" else "Minimum") hc
  obtain ⟨process, hpr, e3⟩ := minMaxCreate_eq F al mx hw hp e1 e2
  obtain ⟨C, e4, ho, h⟩ := three_float F hal hv hw ht (if mx then "Maximum" else "Minimum") (if mx then .maximum else .minimum)
    (fun _ => minMaxOp mx t s) threshold s hpr hb
  exact ⟨s, C, h2, e3.trans e4, ho, h⟩

/-- C76: everything else is refused. -/
theorem C76_refused {al : Nat} {c : PClip} (hv : ValidClip al c) {planes : List Int} {threshold : Option Nat} {coords : Option (List Int)}
    (mx : Bool)
    (h : ¬ Workable c.vi.format ∨ ¬ PlanesOk planes ∨ (c.vi.format.sampleType = stInteger ∧ ¬ ThresholdOk F c.vi.format threshold) ∨
      (c.vi.format.sampleType = stFloat ∧ ∃ b, threshold = some b ∧ ∀ q, single F b = some q → q < 0) ∨ ¬ CoordsOk coords ∨
      ¬ BigClip c.vi planes) :
    ∃ m, minMaxCreate F al mx c.vi planes threshold coords = .err m := by
  unfold minMaxCreate
  dsimp only
  by_cases hw : ¬ Workable c.vi.format
  · have : is8to16orFloat c.vi.format = false := by
      cases e : is8to16orFloat c.vi.format with
      | false => rfl
      | true => exact absurd ((workable_iff _).1 e) hw
    rw [this]
    exact ⟨_, rfl⟩
  have hw := Classical.not_not.1 hw
  rw [(workable_iff _).2 hw, if_neg (by decide), getPlanes_eq]
  by_cases hp : ¬ PlanesOk planes
  · obtain ⟨m, e⟩ := planes_bad (if mx then "Maximum" else "Minimum") hp
    rw [e]
    exact ⟨m, rfl⟩
  have hp := Classical.not_not.1 hp
  obtain ⟨process, e, hpr⟩ := planes_ok (if mx then "Maximum" else "Minimum") hp
  rw [e, Res.bind_ok]
  cases e1 : getThreshold F (if mx then "Maximum" else "Minimum") c.vi.format threshold with
  | err m => exact ⟨m, rfl⟩
  | fatal m => exact absurd e1 (getThreshold_safe F _ _ _).1
  | ub => exact absurd e1 (getThreshold_safe F _ _ _).2
  | ok th =>
    rw [Res.bind_ok]
    by_cases hc : ¬ CoordsOk coords
    · obtain ⟨m, e⟩ := stencil_bad (if mx then "Maximum" else "Minimum") hc
      rw [e]
      exact ⟨m, rfl⟩
    have hc := Classical.not_not.1 hc
    obtain ⟨s, e2, _⟩ := stencil_ok (if mx then "Maximum" else "Minimum") hc
    rw [e2, Res.bind_ok]
    refine big_bad hv hw _ _ hpr ?_
    rcases h with h | h | ⟨h, h'⟩ | ⟨h, h'⟩ | h | h
    · exact absurd hw h
    · exact absurd hp h
    · obtain ⟨m, e⟩ := threshold_bad F (if mx then "Maximum" else "Minimum") h (hw.2.1 h) h'
      cases e1.symm.trans e
    · obtain ⟨m, e⟩ := (threshold_float F (if mx then "Maximum" else "Minimum") h threshold).2 h'
      cases e1.symm.trans e
    · exact absurd hc h
    · exact h

end VS.Generic
