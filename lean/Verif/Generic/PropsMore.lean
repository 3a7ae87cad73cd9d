import Verif.Generic.Props
import Verif.Generic.LemmasMedian

/-! # C77, C78 and C80: Median, Deflate, Inflate, Prewitt and Sobel -/

namespace VS.Generic
open VS VS.Format VS.Map VS.Map.Spec VS.Pix VS.Pix.Spec VS.Point VS.Point.Spec VS.Pixel VS.Pixel.Spec VS.Generic.Spec

variable (F : Floats)

theorem not_workable {f : VFmt} (h : ¬ Workable f) : is8to16orFloat f = false := by
  cases e : is8to16orFloat f with
  | false => rfl
  | true => exact absurd ((workable_iff _).1 e) h

/-! ## Median -/

theorem medianCreate_eq (al : Nat) {vi : VInfo} {planes : List Int} (hw : Workable vi.format) (hp : PlanesOk planes) :
    ∃ process, (∀ p : Nat, p < 3 → process.getD p false = decide (Wanted planes p)) ∧
      medianCreate F al vi planes = genFinish al "Median" vi none none
        (kernel3 F .median (maxSample vi.format) (fun _ => medianOp) none 0) process := by
  obtain ⟨process, e, hpr⟩ := planes_ok "Median" hp
  refine ⟨process, hpr, ?_⟩
  unfold medianCreate
  rw [(workable_iff _).2 hw, if_neg (by decide), getPlanes_eq, e, Res.bind_ok]

/-- C77: Median gives every sample of the chosen planes the median of itself and its eight neighbours. -/
theorem C77_median {al : Nat} (hal : AlignOk al) {c : PClip} (hv : ValidClip al c) {planes : List Int} (hw : Workable c.vi.format)
    (ht : c.vi.format.sampleType = stInteger) (hp : PlanesOk planes) (hb : BigClip c.vi planes) :
    ∃ C, medianCreate F al c.vi planes = .ok C ∧ outInfo C [c] = some c.vi ∧
      ∀ n f, at? c n = some f → (c.vi.width = 0 → BigFrame f planes) →
        ∃ med : Nat → Nat → Nat → Nat, (∀ p x y, IsMedian (nine (smp al f p) (f.w p) (f.h p) x y) (med p x y)) ∧
          Gives al C [c] n f.fmt f.width f.height f.props fun p x y =>
            if Wanted planes p then min (top f.fmt) (med p x y : Int) else smp al f p x y := by
  obtain ⟨process, hpr, e3⟩ := medianCreate_eq F al hw hp
  obtain ⟨k, C, _, e4, ho, h⟩ := three_int F hal hv hw ht "Median" .median (fun _ => medianOp) none 0 hpr hb
  refine ⟨C, e3.trans e4, ho, ?_⟩
  intro n f hf hbf
  refine ⟨fun p x y => medianOp (rows9 (smp al f p) (f.w p) (f.h p) x y), fun p x y => median_nine _ _ _ _ _, ?_⟩
  intro junk
  obtain ⟨g, a, b, c1, c2, c3, c4, c5⟩ := h n f hf hbf junk
  refine ⟨g, a, b, c1, c2, c3, c4, ?_⟩
  intro p x y hpl hx hy
  rw [c5 p x y hpl hx hy]
  dsimp only
  generalize medianOp (rows9 (smp al f p) (f.w p) (f.h p) x y) = m
  split
  · omega
  · rfl

/-- C77: the median of nine numbers is unique, so that the statement above leaves nothing open. -/
theorem C77_unique (v : Nat → Nat → Nat) (w h x y : Nat) {m m' : Nat} (hm : IsMedian (nine v w h x y) m) (hm' : IsMedian (nine v w h x y) m') :
    m = m' := median_unique rfl hm hm'

/-- C77: for floats the result depends on the nine samples alone. -/
theorem C77_float {al : Nat} (hal : AlignOk al) {c : PClip} (hv : ValidClip al c) {planes : List Int} (hw : Workable c.vi.format)
    (ht : c.vi.format.sampleType = stFloat) (hp : PlanesOk planes) (hb : BigClip c.vi planes) :
    ∃ C, medianCreate F al c.vi planes = .ok C ∧ outInfo C [c] = some c.vi ∧
      ∀ n f, at? c n = some f → (c.vi.width = 0 → BigFrame f planes) →
        Gives al C [c] n f.fmt f.width f.height f.props fun p x y =>
          if Wanted planes p then
            ((F.float3 .median (floatKind f.fmt) none 0 (rows9 (smp al f p) (f.w p) (f.h p) x y) % 256 ^ bps f.fmt : Nat) : Int)
          else smp al f p x y := by
  obtain ⟨process, hpr, e3⟩ := medianCreate_eq F al hw hp
  obtain ⟨C, e4, ho, h⟩ := three_float F hal hv hw ht "Median" .median (fun _ => medianOp) none 0 hpr hb
  exact ⟨C, e3.trans e4, ho, h⟩

/-- C77: everything else is refused. -/
theorem C77_refused {al : Nat} {c : PClip} (hv : ValidClip al c) {planes : List Int}
    (h : ¬ Workable c.vi.format ∨ ¬ PlanesOk planes ∨ ¬ BigClip c.vi planes) : ∃ m, medianCreate F al c.vi planes = .err m := by
  by_cases hw : Workable c.vi.format
  · by_cases hp : PlanesOk planes
    · obtain ⟨process, hpr, e⟩ := medianCreate_eq F al hw hp
      rw [e]
      refine big_bad hv hw _ _ hpr ?_
      rcases h with h | h | h
      · exact absurd hw h
      · exact absurd hp h
      · exact h
    · obtain ⟨m, e⟩ := planes_bad "Median" hp
      unfold medianCreate
      rw [(workable_iff _).2 hw, if_neg (by decide), getPlanes_eq, e]
      exact ⟨m, rfl⟩
  · unfold medianCreate
    rw [not_workable hw]
    exact ⟨_, rfl⟩

/-! ## Deflate and Inflate -/

theorem flateCreate_eq (al : Nat) (inflate : Bool) {vi : VInfo} {planes : List Int} {threshold : Option Nat}
    (hw : Workable vi.format) (hp : PlanesOk planes) {th : Nat}
    (ht : getThreshold F (if inflate then "Inflate" else "Deflate") vi.format threshold = .ok th) :
    ∃ process, (∀ p : Nat, p < 3 → process.getD p false = decide (Wanted planes p)) ∧
      flateCreate F al inflate vi planes threshold = genFinish al (if inflate then "Inflate" else "Deflate") vi none none
        (kernel3 F (if inflate then .inflate else .deflate) (maxSample vi.format) (fun _ => flateOp inflate th) threshold 0) process := by
  obtain ⟨process, e, hpr⟩ := planes_ok (if inflate then "Inflate" else "Deflate") hp
  refine ⟨process, hpr, ?_⟩
  unfold flateCreate
  dsimp only
  rw [(workable_iff _).2 hw, if_neg (by decide), getPlanes_eq, e, Res.bind_ok, ht, Res.bind_ok]

theorem smp_word {al : Nat} {c : PClip} (hv : ValidClip al c) (hw : Workable c.vi.format) {k : Kind} (hk : KindOk c.vi.format k)
    (ht : c.vi.format.sampleType = stInteger) {n : Nat} {f : Frm} (hf : at? c n = some f) (p x y : Nat) : smp al f p x y < 65536 := by
  have ef := hv.fmt f (at_mem hf) hw.1
  have := smp_lt (al := al) f p x y
  rw [ef] at this
  rcases (int_kind hk ht).2 with ⟨_, e, _⟩ | ⟨_, e⟩
  · rw [e] at this
    omega
  · rw [e] at this
    exact this

/-- C78: Deflate replaces every sample of the chosen planes by the rounded mean of its eight neighbours if that is smaller, but lowers
it by at most the threshold. -/
theorem C78_deflate {al : Nat} (hal : AlignOk al) {c : PClip} (hv : ValidClip al c) {planes : List Int} (hw : Workable c.vi.format)
    (ht : c.vi.format.sampleType = stInteger) (hp : PlanesOk planes) (hb : BigClip c.vi planes) {threshold : Option Nat}
    (hth : ThresholdOk F c.vi.format threshold) :
    ∃ t C, ThresholdIs F c.vi.format threshold t ∧ flateCreate F al false c.vi planes threshold = .ok C ∧ outInfo C [c] = some c.vi ∧
      ∀ n f, at? c n = some f → (c.vi.width = 0 → BigFrame f planes) →
        Gives al C [c] n f.fmt f.width f.height f.props fun p x y =>
          if Wanted planes p then
            min (top f.fmt) (max (min (mean8 (smp al f p) (f.w p) (f.h p) x y : Int) (smp al f p x y)) (smp al f p x y - t))
          else smp al f p x y := by
  obtain ⟨t, e1, h1⟩ := threshold_ok F "Deflate" ht (hw.2.1 ht) hth
  obtain ⟨process, hpr, e3⟩ := flateCreate_eq F al false hw hp e1
  obtain ⟨k, C, hk, e4, ho, h⟩ := three_int F hal hv hw ht "Deflate" .deflate (fun _ => flateOp false t) threshold 0 hpr hb
  refine ⟨t, C, h1, e3.trans e4, ho, ?_⟩
  intro n f hf hbf junk
  obtain ⟨g, a, b, c1, c2, c3, c4, c5⟩ := h n f hf hbf junk
  refine ⟨g, a, b, c1, c2, c3, c4, ?_⟩
  intro p x y hpl hx hy
  rw [c5 p x y hpl hx hy]
  dsimp only
  rw [(flate_eq t (smp_word hv hw hk ht hf p) _ _ _ _).1]
  split
  · omega
  · rfl

/-- C78: Inflate replaces every sample of the chosen planes by the rounded mean of its eight neighbours if that is larger, but raises
it by at most the threshold. -/
theorem C78_inflate {al : Nat} (hal : AlignOk al) {c : PClip} (hv : ValidClip al c) {planes : List Int} (hw : Workable c.vi.format)
    (ht : c.vi.format.sampleType = stInteger) (hp : PlanesOk planes) (hb : BigClip c.vi planes) {threshold : Option Nat}
    (hth : ThresholdOk F c.vi.format threshold) :
    ∃ t C, ThresholdIs F c.vi.format threshold t ∧ flateCreate F al true c.vi planes threshold = .ok C ∧ outInfo C [c] = some c.vi ∧
      ∀ n f, at? c n = some f → (c.vi.width = 0 → BigFrame f planes) →
        Gives al C [c] n f.fmt f.width f.height f.props fun p x y =>
          if Wanted planes p then
            min (top f.fmt) (min (max (mean8 (smp al f p) (f.w p) (f.h p) x y : Int) (smp al f p x y)) (smp al f p x y + t))
          else smp al f p x y := by
  obtain ⟨t, e1, h1⟩ := threshold_ok F "Inflate" ht (hw.2.1 ht) hth
  obtain ⟨process, hpr, e3⟩ := flateCreate_eq F al true hw hp e1
  obtain ⟨k, C, hk, e4, ho, h⟩ := three_int F hal hv hw ht "Inflate" .inflate (fun _ => flateOp true t) threshold 0 hpr hb
  refine ⟨t, C, h1, e3.trans e4, ho, ?_⟩
  intro n f hf hbf junk
  obtain ⟨g, a, b, c1, c2, c3, c4, c5⟩ := h n f hf hbf junk
  refine ⟨g, a, b, c1, c2, c3, c4, ?_⟩
  intro p x y hpl hx hy
  rw [c5 p x y hpl hx hy]
  dsimp only
  rw [(flate_eq t (smp_word hv hw hk ht hf p) _ _ _ _).2]
  split
  · omega
  · rfl

/-- C78: for floats the result depends on the nine samples and the threshold alone. -/
theorem C78_float {al : Nat} (hal : AlignOk al) {c : PClip} (hv : ValidClip al c) {planes : List Int} (hw : Workable c.vi.format)
    (ht : c.vi.format.sampleType = stFloat) (hp : PlanesOk planes) (hb : BigClip c.vi planes) {threshold : Option Nat}
    (hth : ∀ b, threshold = some b → ∃ q, single F b = some q ∧ 0 ≤ q) (inflate : Bool) :
    ∃ C, flateCreate F al inflate c.vi planes threshold = .ok C ∧ outInfo C [c] = some c.vi ∧
      ∀ n f, at? c n = some f → (c.vi.width = 0 → BigFrame f planes) →
        Gives al C [c] n f.fmt f.width f.height f.props fun p x y =>
          if Wanted planes p then
            ((F.float3 (if inflate then .inflate else .deflate) (floatKind f.fmt) threshold 0 (rows9 (smp al f p) (f.w p) (f.h p) x y)
              % 256 ^ bps f.fmt : Nat) : Int)
          else smp al f p x y := by
  obtain ⟨t, e1⟩ := (threshold_float F (if inflate then "Inflate" else "Deflate") ht threshold).1 hth
  obtain ⟨process, hpr, e3⟩ := flateCreate_eq F al inflate hw hp e1
  obtain ⟨C, e4, ho, h⟩ := three_float F hal hv hw ht (if inflate then "Inflate" else "Deflate") (if inflate then .inflate else .deflate)
    (fun _ => flateOp inflate t) threshold 0 hpr hb
  exact ⟨C, e3.trans e4, ho, h⟩

/-- C78: everything else is refused. -/
theorem C78_refused {al : Nat} {c : PClip} (hv : ValidClip al c) {planes : List Int} {threshold : Option Nat} (inflate : Bool)
    (h : ¬ Workable c.vi.format ∨ ¬ PlanesOk planes ∨ (c.vi.format.sampleType = stInteger ∧ ¬ ThresholdOk F c.vi.format threshold) ∨
      (c.vi.format.sampleType = stFloat ∧ ∃ b, threshold = some b ∧ ∀ q, single F b = some q → q < 0) ∨ ¬ BigClip c.vi planes) :
    ∃ m, flateCreate F al inflate c.vi planes threshold = .err m := by
  unfold flateCreate
  dsimp only
  by_cases hw : Workable c.vi.format
  · rw [(workable_iff _).2 hw, if_neg (by decide), getPlanes_eq]
    by_cases hp : PlanesOk planes
    · obtain ⟨process, e, hpr⟩ := planes_ok (if inflate then "Inflate" else "Deflate") hp
      rw [e, Res.bind_ok]
      cases e1 : getThreshold F (if inflate then "Inflate" else "Deflate") c.vi.format threshold with
      | err m => exact ⟨m, rfl⟩
      | fatal m => exact absurd e1 (getThreshold_safe F _ _ _).1
      | ub => exact absurd e1 (getThreshold_safe F _ _ _).2
      | ok th =>
        rw [Res.bind_ok]
        refine big_bad hv hw _ _ hpr ?_
        rcases h with h | h | ⟨h, h'⟩ | ⟨h, h'⟩ | h
        · exact absurd hw h
        · exact absurd hp h
        · obtain ⟨m, e⟩ := threshold_bad F (if inflate then "Inflate" else "Deflate") h (hw.2.1 h) h'
          cases e1.symm.trans e
        · obtain ⟨m, e⟩ := (threshold_float F (if inflate then "Inflate" else "Deflate") h threshold).2 h'
          cases e1.symm.trans e
        · exact h
    · obtain ⟨m, e⟩ := planes_bad (if inflate then "Inflate" else "Deflate") hp
      rw [e]
      exact ⟨m, rfl⟩
  · rw [not_workable hw]
    exact ⟨_, rfl⟩

/-! ## Prewitt and Sobel -/

theorem scale_ok (name : String) {arg : Option Nat} {s : Rat} (h : ScaleIs F arg s) : getScale F name arg = .ok s := by
  rcases h with ⟨rfl, rfl⟩ | ⟨b, rfl, e, h0⟩
  · rfl
  · unfold getScale
    dsimp only
    rw [e]
    dsimp only
    rw [if_neg (by grind)]

theorem scale_bad (name : String) {arg : Option Nat} (h : ∀ s, ¬ ScaleIs F arg s) : ∃ m, getScale F name arg = .err m := by
  cases arg with
  | none => exact absurd (Or.inl ⟨rfl, rfl⟩) (h 1)
  | some b =>
    unfold getScale
    dsimp only
    cases e : single F b with
    | none => exact ⟨_, rfl⟩
    | some q =>
      dsimp only
      rw [if_pos]
      · exact ⟨_, rfl⟩
      · refine Decidable.byContradiction fun hc => h q (Or.inr ⟨b, rfl, e, by grind⟩)

theorem gradCreate_eq (al : Nat) (sobel : Bool) {vi : VInfo} {planes : List Int} {scale : Option Nat}
    (hw : Workable vi.format) (hp : PlanesOk planes) {s : Rat} (hs : ScaleIs F scale s) :
    ∃ process, (∀ p : Nat, p < 3 → process.getD p false = decide (Wanted planes p)) ∧
      gradCreate F al sobel vi planes scale = genFinish al (if sobel then "Sobel" else "Prewitt") vi none none
        (kernel3 F (if sobel then .sobel else .prewitt) (maxSample vi.format) (fun k => gradOp F sobel k s) scale 0) process := by
  obtain ⟨process, e, hpr⟩ := planes_ok (if sobel then "Sobel" else "Prewitt") hp
  refine ⟨process, hpr, ?_⟩
  unfold gradCreate
  dsimp only
  rw [(workable_iff _).2 hw, if_neg (by decide), getPlanes_eq, e, Res.bind_ok, scale_ok F _ hs, Res.bind_ok]

theorem grad_bounds {s r : Rat} (hs : 0 ≤ s) (hr : 0 ≤ r) (gx gy : Int) :
    (r * r ≤ ((gx * gx + gy * gy : Int) : Rat) → r * s * (1 - 1 / 2 ^ 20) - 1 / 2 ^ 149 ≤ F.rnd (F.root gx gy * s)) ∧
    (((gx * gx + gy * gy : Int) : Rat) ≤ r * r → F.rnd (F.root gx gy * s) ≤ r * s * (1 + 1 / 2 ^ 20) + 1 / 2 ^ 149) := by
  obtain ⟨h1, h2⟩ := root_bounds F gx gy hr
  have h0 := F.root_nonneg gx gy
  generalize ((gx * gx + gy * gy : Int) : Rat) = N at *
  generalize F.root gx gy = t at *
  have hts : 0 ≤ t * s := Rat.mul_nonneg h0 hs
  have hrs : 0 ≤ r * s := Rat.mul_nonneg hr hs
  have hc := rabs_le.1 (F.rnd_close (t * s))
  have ha : rabs (t * s) = t * s := by
    unfold rabs
    split <;> grind
  rw [ha] at hc
  constructor
  · intro h
    have := Rat.mul_le_mul_of_nonneg_right (h1 h) hs
    have e : r * (1 - 1 / 2 ^ 21) * s = r * s * (1 - 1 / 2 ^ 21) := by grind
    rw [e] at this
    grind
  · intro h
    have := Rat.mul_le_mul_of_nonneg_right (h2 h) hs
    have e : r * (1 + 1 / 2 ^ 21) * s = r * s * (1 + 1 / 2 ^ 21) := by grind
    rw [e] at this
    grind

theorem scale_nonneg {arg : Option Nat} {s : Rat} (h : ScaleIs F arg s) : 0 ≤ s := by
  rcases h with ⟨_, rfl⟩ | ⟨_, _, _, h⟩
  · decide +kernel
  · exact h

theorem clamp_lo {m g a t : Rat} (h : -(1 / 2) ≤ m - max 0 (min g t) ∧ m - max 0 (min g t) ≤ 1 / 2) (ha : a ≤ g) : min a t ≤ m + 1 / 2 := by
  grind

theorem clamp_hi {m g b t : Rat} (h : -(1 / 2) ≤ m - max 0 (min g t) ∧ m - max 0 (min g t) ≤ 1 / 2) (ht : 0 ≤ t) (hb : 0 ≤ b) (ha : g ≤ b) :
    m ≤ min b t + 1 / 2 := by
  grind

/-- C80: Prewitt and Sobel give every sample of the chosen planes the length of the gradient times `scale`, rounded and limited to
the range of the samples: not smaller than for any `r` below that length and not larger than for any `r` above it, up to a relative
error of 2^-20. -/
theorem C80_gradient {al : Nat} (hal : AlignOk al) {c : PClip} (hv : ValidClip al c) {planes : List Int} (hw : Workable c.vi.format)
    (ht : c.vi.format.sampleType = stInteger) (hp : PlanesOk planes) (hb : BigClip c.vi planes) {scale : Option Nat} {s : Rat}
    (hs : ScaleIs F scale s) (sobel : Bool) :
    ∃ C, gradCreate F al sobel c.vi planes scale = .ok C ∧ outInfo C [c] = some c.vi ∧
      ∀ n f, at? c n = some f → (c.vi.width = 0 → BigFrame f planes) →
        ∃ len : Nat → Nat → Nat → Nat,
          (∀ p x y, ∀ r : Rat, 0 ≤ r →
            (r * r ≤ normSq (if sobel then 2 else 1) (smp al f p) (f.w p) (f.h p) x y →
              min (r * s * (1 - 1 / 2 ^ 20) - 1 / 2 ^ 149) ((top f.fmt : Nat) : Rat) ≤ (len p x y : Rat) + 1 / 2) ∧
            (normSq (if sobel then 2 else 1) (smp al f p) (f.w p) (f.h p) x y ≤ r * r →
              (len p x y : Rat) ≤ min (r * s * (1 + 1 / 2 ^ 20) + 1 / 2 ^ 149) ((top f.fmt : Nat) : Rat) + 1 / 2)) ∧
          (∀ p x y, len p x y ≤ top f.fmt) ∧
          (∀ p x y, normSq (if sobel then 2 else 1) (smp al f p) (f.w p) (f.h p) x y = 0 → len p x y = 0) ∧
          Gives al C [c] n f.fmt f.width f.height f.props fun p x y =>
            if Wanted planes p then (len p x y : Int) else smp al f p x y := by
  obtain ⟨process, hpr, e3⟩ := gradCreate_eq F al sobel hw hp hs
  obtain ⟨k, C, hk, e4, ho, h⟩ := three_int F hal hv hw ht (if sobel then "Sobel" else "Prewitt") (if sobel then .sobel else .prewitt)
    (fun k => gradOp F sobel k s) scale 0 hpr hb
  refine ⟨C, e3.trans e4, ho, ?_⟩
  intro n f hf hbf
  have ef := hv.fmt f (at_mem hf) hw.1
  have hs0 := scale_nonneg F hs
  have htop : top f.fmt ≤ typeMax k := by
    rw [ef]
    obtain ⟨h1, h2⟩ := int_kind hk ht
    rcases h2 with ⟨rfl, e, _⟩ | ⟨rfl, e⟩
    · rw [e] at h1
      show top c.vi.format ≤ 255
      omega
    · rw [e] at h1
      show top c.vi.format ≤ 65535
      omega
  have ht0 : (0 : Rat) ≤ (top f.fmt : Nat) := by exact_mod_cast Nat.zero_le _
  have near : ∀ p x y, rabs ((min (gradOp F sobel k s (rows9 (smp al f p) (f.w p) (f.h p) x y)) (top f.fmt) : Nat) -
      max 0 (min (F.rnd (F.root (weighted (down (if sobel then 2 else 1)) (smp al f p) (f.w p) (f.h p) x y)
        (weighted (right (if sobel then 2 else 1)) (smp al f p) (f.w p) (f.h p) x y) * s)) (top f.fmt : Nat))) ≤ 1 / 2 := by
    intro p x y
    rw [grad_eq]
    exact xrint_near k _ htop
  refine ⟨fun p x y => min (gradOp F sobel k s (rows9 (smp al f p) (f.w p) (f.h p) x y)) (top f.fmt), ?_, ?_, ?_, ?_⟩
  · intro p x y r hr
    obtain ⟨b1, b2⟩ := grad_bounds F hs0 hr (weighted (down (if sobel then 2 else 1)) (smp al f p) (f.w p) (f.h p) x y)
      (weighted (right (if sobel then 2 else 1)) (smp al f p) (f.w p) (f.h p) x y)
    have hn := rabs_le.1 (near p x y)
    have hrs : 0 ≤ r * s := Rat.mul_nonneg hr hs0
    unfold normSq
    constructor
    · intro hh
      exact clamp_lo hn (b1 hh)
    · intro hh
      exact clamp_hi hn ht0 (by grind) (b2 hh)
  · intro p x y
    exact Nat.min_le_right _ _
  · intro p x y hz
    have hn := rabs_le.1 (near p x y)
    obtain ⟨_, b2⟩ := root_bounds F (weighted (down (if sobel then 2 else 1)) (smp al f p) (f.w p) (f.h p) x y)
      (weighted (right (if sobel then 2 else 1)) (smp al f p) (f.w p) (f.h p) x y) (r := 0) (by decide +kernel)
    have h0 := F.root_nonneg (weighted (down (if sobel then 2 else 1)) (smp al f p) (f.w p) (f.h p) x y)
      (weighted (right (if sobel then 2 else 1)) (smp al f p) (f.w p) (f.h p) x y)
    unfold normSq at hz
    rw [hz] at b2
    have b2 := b2 (by decide +kernel)
    have hr0 : F.rnd 0 = 0 := by
      have := F.rnd_int 0 (by decide)
      simpa using this
    rw [show F.root (weighted (down (if sobel then 2 else 1)) (smp al f p) (f.w p) (f.h p) x y)
      (weighted (right (if sobel then 2 else 1)) (smp al f p) (f.w p) (f.h p) x y) = 0 by grind, Rat.zero_mul, hr0] at hn
    dsimp only
    generalize min (gradOp F sobel k s (rows9 (smp al f p) (f.w p) (f.h p) x y)) (top f.fmt) = m at *
    have : (m : Rat) < ((1 : Nat) : Rat) := by
      have e1 : ((1 : Nat) : Rat) = 1 := rfl
      rw [e1]
      grind
    have : m < 1 := by exact_mod_cast this
    omega
  · intro junk
    obtain ⟨g, a, b, c1, c2, c3, c4, c5⟩ := h n f hf hbf junk
    exact ⟨g, a, b, c1, c2, c3, c4, c5⟩

/-- C80: for floats the result depends on the nine samples and the scale alone. -/
theorem C80_float {al : Nat} (hal : AlignOk al) {c : PClip} (hv : ValidClip al c) {planes : List Int} (hw : Workable c.vi.format)
    (ht : c.vi.format.sampleType = stFloat) (hp : PlanesOk planes) (hb : BigClip c.vi planes) {scale : Option Nat} {s : Rat}
    (hs : ScaleIs F scale s) (sobel : Bool) :
    ∃ C, gradCreate F al sobel c.vi planes scale = .ok C ∧ outInfo C [c] = some c.vi ∧
      ∀ n f, at? c n = some f → (c.vi.width = 0 → BigFrame f planes) →
        Gives al C [c] n f.fmt f.width f.height f.props fun p x y =>
          if Wanted planes p then
            ((F.float3 (if sobel then .sobel else .prewitt) (floatKind f.fmt) scale 0 (rows9 (smp al f p) (f.w p) (f.h p) x y)
              % 256 ^ bps f.fmt : Nat) : Int)
          else smp al f p x y := by
  obtain ⟨process, hpr, e3⟩ := gradCreate_eq F al sobel hw hp hs
  obtain ⟨C, e4, ho, h⟩ := three_float F hal hv hw ht (if sobel then "Sobel" else "Prewitt") (if sobel then .sobel else .prewitt)
    (fun k => gradOp F sobel k s) scale 0 hpr hb
  exact ⟨C, e3.trans e4, ho, h⟩

/-- C80: everything else is refused. -/
theorem C80_refused {al : Nat} {c : PClip} (hv : ValidClip al c) {planes : List Int} {scale : Option Nat} (sobel : Bool)
    (h : ¬ Workable c.vi.format ∨ ¬ PlanesOk planes ∨ (∀ s, ¬ ScaleIs F scale s) ∨ ¬ BigClip c.vi planes) :
    ∃ m, gradCreate F al sobel c.vi planes scale = .err m := by
  unfold gradCreate
  dsimp only
  by_cases hw : Workable c.vi.format
  · rw [(workable_iff _).2 hw, if_neg (by decide), getPlanes_eq]
    by_cases hp : PlanesOk planes
    · obtain ⟨process, e, hpr⟩ := planes_ok (if sobel then "Sobel" else "Prewitt") hp
      rw [e, Res.bind_ok]
      by_cases hs : ∃ s, ScaleIs F scale s
      · obtain ⟨s, hs⟩ := hs
        rw [scale_ok F _ hs, Res.bind_ok]
        refine big_bad hv hw _ _ hpr ?_
        rcases h with h | h | h | h
        · exact absurd hw h
        · exact absurd hp h
        · exact absurd hs (h s)
        · exact h
      · obtain ⟨m, e⟩ := scale_bad F (if sobel then "Sobel" else "Prewitt") (fun s h => hs ⟨s, h⟩)
        rw [e]
        exact ⟨m, rfl⟩
    · obtain ⟨m, e⟩ := planes_bad (if sobel then "Sobel" else "Prewitt") hp
      rw [e]
      exact ⟨m, rfl⟩
  · rw [not_workable hw]
    exact ⟨_, rfl⟩

/-! ## Clips with frames of different sizes -/

theorem planes_inv {name : String} {planes : List Int} {process : List Bool} (h : getPlanesArg name planes = .ok process) :
    ∀ p : Nat, p < 3 → process.getD p false = decide (Wanted planes p) := by
  rw [getPlanes_eq] at h
  by_cases hp : PlanesOk planes
  · obtain ⟨r, e, hr⟩ := planes_ok name hp
    cases h.symm.trans e
    exact hr
  · obtain ⟨m, e⟩ := planes_bad name hp
    cases h.symm.trans e

/-- C76: a frame with a plane that is too small is an error. -/
theorem C76_frame_refused {al : Nat} {c : PClip} (hv : ValidClip al c) {planes : List Int} {threshold : Option Nat}
    {coords : Option (List Int)} {mx : Bool} {C : Created} (hC : minMaxCreate F al mx c.vi planes threshold coords = .ok C) {n : Nat} {f : Frm}
    (hf : at? c n = some f) (h0 : c.vi.width = 0) (hd : ¬ BigFrame f planes) (junk : Junk) : ∃ m, C.frame [c] n junk = .err m := by
  unfold minMaxCreate at hC
  dsimp only at hC
  split at hC
  · cases hC
  · obtain ⟨process, e, hC⟩ := bind_eq_ok hC
    obtain ⟨_, _, hC⟩ := bind_eq_ok hC
    obtain ⟨_, _, hC⟩ := bind_eq_ok hC
    exact small_err hv (planes_inv e) hC hf h0 hd junk

/-- C77: the same for Median. -/
theorem C77_frame_refused {al : Nat} {c : PClip} (hv : ValidClip al c) {planes : List Int} {C : Created}
    (hC : medianCreate F al c.vi planes = .ok C) {n : Nat} {f : Frm}
    (hf : at? c n = some f) (h0 : c.vi.width = 0) (hd : ¬ BigFrame f planes) (junk : Junk) : ∃ m, C.frame [c] n junk = .err m := by
  unfold medianCreate at hC
  split at hC
  · cases hC
  · obtain ⟨process, e, hC⟩ := bind_eq_ok hC
    exact small_err hv (planes_inv e) hC hf h0 hd junk

/-- C78: the same for Deflate and Inflate. -/
theorem C78_frame_refused {al : Nat} {c : PClip} (hv : ValidClip al c) {planes : List Int} {threshold : Option Nat} {inflate : Bool}
    {C : Created} (hC : flateCreate F al inflate c.vi planes threshold = .ok C) {n : Nat} {f : Frm}
    (hf : at? c n = some f) (h0 : c.vi.width = 0) (hd : ¬ BigFrame f planes) (junk : Junk) : ∃ m, C.frame [c] n junk = .err m := by
  unfold flateCreate at hC
  dsimp only at hC
  split at hC
  · cases hC
  · obtain ⟨process, e, hC⟩ := bind_eq_ok hC
    obtain ⟨_, _, hC⟩ := bind_eq_ok hC
    exact small_err hv (planes_inv e) hC hf h0 hd junk

/-- C80: the same for Prewitt and Sobel. -/
theorem C80_frame_refused {al : Nat} {c : PClip} (hv : ValidClip al c) {planes : List Int} {scale : Option Nat} {sobel : Bool}
    {C : Created} (hC : gradCreate F al sobel c.vi planes scale = .ok C) {n : Nat} {f : Frm}
    (hf : at? c n = some f) (h0 : c.vi.width = 0) (hd : ¬ BigFrame f planes) (junk : Junk) : ∃ m, C.frame [c] n junk = .err m := by
  unfold gradCreate at hC
  dsimp only at hC
  split at hC
  · cases hC
  · obtain ⟨process, e, hC⟩ := bind_eq_ok hC
    obtain ⟨_, _, hC⟩ := bind_eq_ok hC
    exact small_err hv (planes_inv e) hC hf h0 hd junk

/-! ## Examples -/

/-- A whole root: numbers up to `n` are tried. -/
def isqrt : Nat → Nat
  | 0 => 0
  | n + 1 => if (isqrt n + 1) * (isqrt n + 1) ≤ n + 1 then isqrt n + 1 else isqrt n

theorem isqrt_spec (n : Nat) : isqrt n * isqrt n ≤ n ∧ n < (isqrt n + 1) * (isqrt n + 1) := by
  induction n with
  | zero => decide
  | succ n ih =>
    unfold isqrt
    split
    · next h =>
      refine ⟨h, ?_⟩
      have : (isqrt n + 1 + 1) * (isqrt n + 1 + 1) = (isqrt n + 1) * (isqrt n + 1) + 2 * (isqrt n + 1) + 1 := by grind
      omega
    · exact ⟨by omega, by omega⟩

/-- A root in steps of 2^-30. -/
def root30 (n : Nat) : Rat := (isqrt (n * 2 ^ 60) : Rat) / 2 ^ 30

theorem root30_close (n : Nat) : 0 ≤ root30 n ∧ rabs (root30 n * root30 n - n) ≤ (n : Rat) / 2 ^ 21 := by
  obtain ⟨h1, h2⟩ := isqrt_spec (n * 2 ^ 60)
  unfold root30
  generalize isqrt (n * 2 ^ 60) = k at *
  have k0 : (0 : Rat) ≤ k := by exact_mod_cast Nat.zero_le k
  have h3 : k ≤ n * 2 ^ 30 := by
    refine Decidable.byContradiction fun hc => ?_
    have h3 : n * 2 ^ 30 + 1 ≤ k := by omega
    have : (n * 2 ^ 30 + 1) * (n * 2 ^ 30 + 1) ≤ k * k := Nat.mul_le_mul h3 h3
    have e : (n * 2 ^ 30 + 1) * (n * 2 ^ 30 + 1) = n * n * 2 ^ 60 + 2 * (n * 2 ^ 30) + 1 := by grind
    have : n ≤ n * n := by
      rcases Nat.eq_zero_or_pos n with h | h
      · omega
      · exact Nat.le_mul_of_pos_left n h
    have : n * 2 ^ 60 ≤ n * n * 2 ^ 60 := Nat.mul_le_mul_right _ this
    omega
  have r1 : ((k * k : Nat) : Rat) ≤ ((n * 2 ^ 60 : Nat) : Rat) := by exact_mod_cast h1
  have r2 : ((n * 2 ^ 60 : Nat) : Rat) < (((k + 1) * (k + 1) : Nat) : Rat) := by exact_mod_cast h2
  have r3 : ((k : Nat) : Rat) ≤ ((n * 2 ^ 30 : Nat) : Rat) := by exact_mod_cast h3
  have n0 : (0 : Rat) ≤ n := by exact_mod_cast Nat.zero_le n
  have hn1 : n = 0 ∨ (1 : Rat) ≤ n := by
    rcases Nat.eq_zero_or_pos n with h | h
    · exact Or.inl h
    · exact Or.inr (by exact_mod_cast h)
  push_cast at r1 r2 r3
  refine ⟨by grind, ?_⟩
  rw [rabs_le]
  have e : (k : Rat) / 2 ^ 30 * ((k : Rat) / 2 ^ 30) = (k * k : Rat) / 2 ^ 60 := by grind
  have e2 : ((k : Rat) + 1) * (k + 1) = k * k + 2 * k + 1 := by grind
  rw [e]
  rw [e2] at r2
  have kk0 : (0 : Rat) ≤ k * k := Rat.mul_nonneg k0 k0
  generalize (k : Rat) * k = kk at *
  rcases hn1 with h | h
  · subst h
    have : (k : Rat) = 0 := by
      have : k = 0 := by omega
      rw [this]; rfl
    have hz : ((0 : Nat) : Rat) = 0 := rfl
    rw [hz] at *
    constructor <;> grind
  · constructor <;> grind

/-- Numbers with one digit after the point in base 2. -/
def exFloats : Floats where
  value b := if b < 10000 then some ((b : Rat) / 2 - 500) else none
  rnd q := q
  rnd_close q := by
    rw [Rat.sub_self]
    have : (0 : Rat) ≤ rabs q := by unfold rabs; split <;> grind
    have : rabs (0 : Rat) = 0 := rfl
    grind
  rnd_int n _ := rfl
  root gx gy := root30 (gx * gx + gy * gy).toNat
  root_nonneg gx gy := (root30_close _).1
  root_close gx gy := by
    have h : 0 ≤ gx * gx + gy * gy := by
      have sq : ∀ a : Int, 0 ≤ a * a := fun a => by
        rcases Int.le_total 0 a with h | h
        · exact Int.mul_nonneg h h
        · exact Int.mul_nonneg_of_nonpos_of_nonpos h h
      have := sq gx
      have := sq gy
      omega
    have := (root30_close (gx * gx + gy * gy).toNat).2
    have e : (((gx * gx + gy * gy).toNat : Nat) : Rat) = ((gx * gx + gy * gy : Int) : Rat) := by
      rw [← Rat.intCast_natCast, Int.toNat_of_nonneg h]
    rwa [e] at this
  float3 _ _ _ _ l := l.getD 4 0
  muladd a r b := a * r + b
  muladd_close a r b := by
    rw [Rat.sub_self]
    have h : ∀ q, (0 : Rat) ≤ rabs q := fun q => by unfold rabs; split <;> grind
    have := h (a * r)
    have := h b
    have : rabs (0 : Rat) = 0 := rfl
    grind
  muladd_int a r b _ _ := by push_cast; rfl
  infDiv _ _ _ := 0
  floatConv _ _ _ _ _ l := l.getD 4 0

theorem gray8_44 : Geo gray8 4 4 := ⟨by decide, by decide, by decide, by decide, by decide, by decide, by decide, by decide⟩

theorem gray8_work : Workable gray8 := (workable_iff _).1 rfl

/-- A picture with a bright sample in the middle. -/
def dot : Nat → Nat → Nat := fun _ i => if i = 33 then 200 else 7

theorem dot_big : BigClip (clip1 gray8 4 4 dot Dict.empty).vi [] := by
  intro _ p hp _
  have : p = 0 := by
    have : (p : Int) < 1 := hp
    omega
  subst this
  decide

/-- C76: the bright sample is gone after Minimum, and spreads with Maximum by at most the threshold. -/
example : ∃ C g, minMaxCreate exFloats 32 false (clip1 gray8 4 4 dot Dict.empty).vi [] none none = .ok C ∧
    C.frame [clip1 gray8 4 4 dot Dict.empty] 0 (fun _ _ => 0) = .ok g ∧ smp 32 g 0 1 1 = 7 := by
  obtain ⟨t, C, ⟨ht, h | ⟨b, q, h, _⟩⟩, e, _, h'⟩ := C76_minimum exFloats (Or.inl rfl) (clip1_valid gray8_44 dot Dict.empty) (planes := [])
    gray8_work rfl (by decide) dot_big (threshold := none) (fun b h => by cases h) (coords := none) (fun b h => by cases h)
  · obtain ⟨g, e', _, g1, g2, g3, _, g5⟩ := h' 0 _ (clip1_at _ _ _ _ _ _) (fun h => absurd h (by decide)) (fun _ _ => 0)
    refine ⟨C, g, e, e', ?_⟩
    have := g5 0 1 1 (by decide) (by rw [w_eq g1 g2]; decide) (by rw [h_eq g1 g3]; decide)
    dsimp only at this
    rw [if_pos (by decide), h.2] at this
    have e2 : min ((top (mkFrame 32 gray8 4 4 dot Dict.empty).fmt : Nat) : Int)
      (max ((chosen none (smp 32 (mkFrame 32 gray8 4 4 dot Dict.empty) 0) ((mkFrame 32 gray8 4 4 dot Dict.empty).w 0)
        ((mkFrame 32 gray8 4 4 dot Dict.empty).h 0) 1 1).min?.getD 0 : Int)
        ((smp 32 (mkFrame 32 gray8 4 4 dot Dict.empty) 0 1 1 : Int) - (top gray8 : Nat))) = 7 := by decide +kernel
    have := this.trans e2
    omega
  · cases h

example : ∃ t C g, minMaxCreate exFloats 32 true (clip1 gray8 4 4 dot Dict.empty).vi [] (some 1020) (some [1, 0, 0, 0, 0, 0, 0, 0]) = .ok C ∧
    C.frame [clip1 gray8 4 4 dot Dict.empty] 0 (fun _ _ => 0) = .ok g ∧ smp 32 g 0 2 2 = 7 + t ∧ t = 10 := by
  obtain ⟨t, C, ⟨ht, h | ⟨b, q, h, hq, hn⟩⟩, e, _, h'⟩ := C76_maximum exFloats (Or.inl rfl) (clip1_valid gray8_44 dot Dict.empty) (planes := [])
    gray8_work rfl (by decide) dot_big (threshold := some 1020)
    (fun b h => by cases h; exact ⟨10, by decide +kernel, by decide +kernel, by decide +kernel⟩)
    (coords := some [1, 0, 0, 0, 0, 0, 0, 0]) (fun b h => by cases h; rfl)
  · cases h.1
  · cases h
    have e10 : single exFloats 1020 = some 10 := by decide +kernel
    rw [e10] at hq
    injection hq with hq
    subst hq
    have hn := rabs_le.1 hn
    have t1 : (t : Rat) < ((11 : Nat) : Rat) := by
      have : ((11 : Nat) : Rat) = 11 := rfl
      rw [this]; grind
    have t2 : ((9 : Nat) : Rat) < t := by
      have : ((9 : Nat) : Rat) = 9 := rfl
      rw [this]; grind
    have t1 : t < 11 := by exact_mod_cast t1
    have t2 : 9 < t := by exact_mod_cast t2
    have t3 : t = 10 := by omega
    subst t3
    obtain ⟨g, e', _, g1, g2, g3, _, g5⟩ := h' 0 _ (clip1_at _ _ _ _ _ _) (fun h => absurd h (by decide)) (fun _ _ => 0)
    refine ⟨10, C, g, e, e', ?_, rfl⟩
    have := g5 0 2 2 (by decide) (by rw [w_eq g1 g2]; decide) (by rw [h_eq g1 g3]; decide)
    dsimp only at this
    rw [if_pos (by decide)] at this
    have e2 : min ((top (mkFrame 32 gray8 4 4 dot Dict.empty).fmt : Nat) : Int)
      (min ((chosen (some [1, 0, 0, 0, 0, 0, 0, 0]) (smp 32 (mkFrame 32 gray8 4 4 dot Dict.empty) 0) ((mkFrame 32 gray8 4 4 dot Dict.empty).w 0)
        ((mkFrame 32 gray8 4 4 dot Dict.empty).h 0) 2 2).max?.getD 0 : Int)
        ((smp 32 (mkFrame 32 gray8 4 4 dot Dict.empty) 0 2 2 : Int) + (10 : Nat))) = 17 := by decide +kernel
    have := this.trans e2
    omega

/-- C77: a single sample is removed. -/
example : ∃ C g, medianCreate exFloats 32 (clip1 gray8 4 4 dot Dict.empty).vi [] = .ok C ∧
    C.frame [clip1 gray8 4 4 dot Dict.empty] 0 (fun _ _ => 0) = .ok g ∧ smp 32 g 0 1 1 = 7 := by
  obtain ⟨C, e, _, h'⟩ := C77_median exFloats (Or.inl rfl) (clip1_valid gray8_44 dot Dict.empty) (planes := [])
    gray8_work rfl (by decide) dot_big
  obtain ⟨med, hm, h''⟩ := h' 0 _ (clip1_at _ _ _ _ _ _) (fun h => absurd h (by decide))
  obtain ⟨g, e', _, g1, g2, g3, _, g5⟩ := h'' (fun _ _ => 0)
  refine ⟨C, g, e, e', ?_⟩
  have := g5 0 1 1 (by decide) (by rw [w_eq g1 g2]; decide) (by rw [h_eq g1 g3]; decide)
  dsimp only at this
  have u := C77_unique _ _ _ _ _ (hm 0 1 1) (m' := 7) (by unfold IsMedian; decide +kernel)
  have et : top (mkFrame 32 gray8 4 4 dot Dict.empty).fmt = 255 := by decide
  rw [if_pos (by decide), u, et] at this
  omega

/-- C78: the mean of the neighbours of the bright sample is 7. -/
example : ∃ C g, flateCreate exFloats 32 false (clip1 gray8 4 4 dot Dict.empty).vi [] none = .ok C ∧
    C.frame [clip1 gray8 4 4 dot Dict.empty] 0 (fun _ _ => 0) = .ok g ∧ smp 32 g 0 1 1 = 7 := by
  obtain ⟨t, C, ⟨ht, h | ⟨b, q, h, _⟩⟩, e, _, h'⟩ := C78_deflate exFloats (Or.inl rfl) (clip1_valid gray8_44 dot Dict.empty) (planes := [])
    gray8_work rfl (by decide) dot_big (threshold := none) (fun b h => by cases h)
  · obtain ⟨g, e', _, g1, g2, g3, _, g5⟩ := h' 0 _ (clip1_at _ _ _ _ _ _) (fun h => absurd h (by decide)) (fun _ _ => 0)
    refine ⟨C, g, e, e', ?_⟩
    have := g5 0 1 1 (by decide) (by rw [w_eq g1 g2]; decide) (by rw [h_eq g1 g3]; decide)
    dsimp only at this
    rw [if_pos (by decide), h.2] at this
    have e2 : min ((top (mkFrame 32 gray8 4 4 dot Dict.empty).fmt : Nat) : Int)
      (max (min (mean8 (smp 32 (mkFrame 32 gray8 4 4 dot Dict.empty) 0) ((mkFrame 32 gray8 4 4 dot Dict.empty).w 0)
        ((mkFrame 32 gray8 4 4 dot Dict.empty).h 0) 1 1 : Int) (smp 32 (mkFrame 32 gray8 4 4 dot Dict.empty) 0 1 1 : Int))
        ((smp 32 (mkFrame 32 gray8 4 4 dot Dict.empty) 0 1 1 : Int) - (top gray8 : Nat))) = 7 := by decide +kernel
    have := this.trans e2
    omega
  · cases h

/-- C80: below the bright sample the gradient of Sobel is 2 · 193 and limited to 255; three samples below it is 0. -/
example : ∃ C g, gradCreate exFloats 32 true (clip1 gray8 4 4 dot Dict.empty).vi [] none = .ok C ∧
    C.frame [clip1 gray8 4 4 dot Dict.empty] 0 (fun _ _ => 0) = .ok g ∧ smp 32 g 0 1 2 = 255 ∧ smp 32 g 0 1 3 = 0 := by
  obtain ⟨C, e, _, h'⟩ := C80_gradient exFloats (Or.inl rfl) (clip1_valid gray8_44 dot Dict.empty) (planes := [])
    gray8_work rfl (by decide) dot_big (scale := none) (s := 1) (Or.inl ⟨rfl, rfl⟩) true
  obtain ⟨len, h1, h2, h3, h''⟩ := h' 0 _ (clip1_at _ _ _ _ _ _) (fun h => absurd h (by decide))
  obtain ⟨g, e', _, g1, g2, g3, _, g5⟩ := h'' (fun _ _ => 0)
  refine ⟨C, g, e, e', ?_, ?_⟩
  · have := g5 0 1 2 (by decide) (by rw [w_eq g1 g2]; decide) (by rw [h_eq g1 g3]; decide)
    dsimp only at this
    rw [if_pos (by decide)] at this
    have k1 := (h1 0 1 2 386 (by decide +kernel)).1 (by decide +kernel)
    have et : top (mkFrame 32 gray8 4 4 dot Dict.empty).fmt = 255 := by decide
    have k2 := h2 0 1 2
    rw [et] at k1 k2
    have k3 : ((254 : Nat) : Rat) < len 0 1 2 := by
      have : ((254 : Nat) : Rat) = 254 := rfl
      have : ((255 : Nat) : Rat) = 255 := rfl
      grind
    have k3 : 254 < len 0 1 2 := by exact_mod_cast k3
    omega
  · have := g5 0 1 3 (by decide) (by rw [w_eq g1 g2]; decide) (by rw [h_eq g1 g3]; decide)
    dsimp only at this
    rw [if_pos (by decide), h3 0 1 3 (by decide +kernel)] at this
    omega

end VS.Generic
