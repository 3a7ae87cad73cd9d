import Verif.Generic.LemmasOp

/-! # From kernels on nine samples to filters -/

namespace VS.Generic
open VS VS.Format VS.Map VS.Map.Spec VS.Pix VS.Pix.Spec VS.Point VS.Point.Spec VS.Pixel VS.Pixel.Spec VS.Generic.Spec

variable (F : Floats)

theorem dims_eq {al : Nat} {c : PClip} (hv : ValidClip al c) (hw : Workable c.vi.format) {n : Nat} {f : Frm} (hf : at? c n = some f)
    (h0 : 0 < c.vi.width) (p : Nat) :
    planeDim c.vi.width c.vi.format.subSamplingW p = f.w p ∧ planeDim c.vi.height c.vi.format.subSamplingH p = f.h p := by
  have e := hv.fmt f (at_mem hf) hw.1
  obtain ⟨e1, e2⟩ := hv.size f (at_mem hf) (Or.inl (by omega))
  unfold planeDim Frm.w Frm.h ssw ssh
  rw [e, ← e1, ← e2]
  by_cases hp : p = 0
  · rw [if_pos hp, if_pos hp, if_pos hp, if_pos hp]
    simp
  · rw [if_neg hp, if_neg hp, if_neg hp, if_neg hp]
    simp

theorem big_dims {al : Nat} {c : PClip} (hv : ValidClip al c) {planes : List Int} :
    BigClip c.vi planes ↔ (0 < c.vi.width → ∀ p : Nat, (p : Int) < c.vi.format.numPlanes → Wanted planes p →
      checkDims none none (planeDim c.vi.width c.vi.format.subSamplingW p) (planeDim c.vi.height c.vi.format.subSamplingH p) = none) := by
  obtain ⟨_, _, _, i1, i2, _, _, i3⟩ := (info_iff _).1 hv.info
  unfold BigClip
  constructor
  · intro h h0 p hp hwp
    obtain ⟨h1, h2⟩ := h h0 p hp hwp
    rw [checkDims_big]
    rw [← planeDim_eq (by omega)] at h1 h2
    omega
  · intro h h0 p hp hwp
    have := checkDims_big.1 (h h0 p hp hwp)
    rw [← planeDim_eq (by omega), ← planeDim_eq (by omega)]
    omega

theorem big_bad {al : Nat} {c : PClip} (hv : ValidClip al c) (hw : Workable c.vi.format) (name : String)
    (cell : Kind → (Nat → Nat → Res Nat) → Nat → Nat → Nat → Nat → Res Nat) {planes : List Int} {process : List Bool}
    (hpr : ∀ p : Nat, p < 3 → process.getD p false = decide (Wanted planes p)) (h : ¬ BigClip c.vi planes) :
    ∃ m, genFinish al name c.vi none none cell process = .err m := by
  refine (genFinish_ok hv hw name cell hpr).2 ?_
  rw [big_dims hv] at h
  refine ⟨?_, ?_⟩
  · refine Decidable.byContradiction fun hc => h fun h0 => absurd h0 hc
  · refine Classical.byContradiction fun hc => h fun _ p hp hwp => Classical.byContradiction fun hd => hc ⟨p, hp, hwp, hd⟩

/-- A filter with the kernel `op`. -/
theorem three_ok {al : Nat} (hal : AlignOk al) {c : PClip} (hv : ValidClip al c) (hw : Workable c.vi.format) (name : String)
    (op : Kind → List Nat → Nat) {planes : List Int} {process : List Bool}
    (hpr : ∀ p : Nat, p < 3 → process.getD p false = decide (Wanted planes p)) (hb : BigClip c.vi planes) :
    ∃ k C, KindOk c.vi.format k ∧ genFinish al name c.vi none none (fun k => cell3 (op k)) process = .ok C ∧ outInfo C [c] = some c.vi ∧
      ∀ n f, at? c n = some f → (c.vi.width = 0 → BigFrame f planes) →
        Gives al C [c] n f.fmt f.width f.height f.props fun p x y =>
          if Wanted planes p then ((op k (rows9 (smp al f p) (f.w p) (f.h p) x y) % 256 ^ bps f.fmt : Nat) : Int) else smp al f p x y := by
  obtain ⟨_, _, _, i1, i2, _, _, i3⟩ := (info_iff _).1 hv.info
  obtain ⟨k, hk, hkb, e⟩ := (genFinish_ok hv hw name (fun k => cell3 (op k)) hpr).1 ((big_dims hv).1 hb)
  refine ⟨k, _, hk, e, rfl, ?_⟩
  intro n f hf hbf
  have ef := hv.fmt f (at_mem hf) hw.1
  have hbig : ∀ p : Nat, (p : Int) < f.fmt.numPlanes → Wanted planes p → 4 ≤ f.w p ∧ 4 ≤ f.h p := by
    intro p hp hwp
    by_cases h0 : c.vi.width = 0
    · exact hbf h0 p hp hwp
    · obtain ⟨d1, d2⟩ := dims_eq hv hw hf (by omega) p
      have := checkDims_big.1 ((big_dims hv).1 hb (by omega) p (by rw [← ef]; exact hp) hwp)
      rw [d1, d2] at this
      exact this
  refine gen_gives hal hv hpr hf (by rw [hkb, ef]) (fun p hp hwp => checkDims_big.2 (hbig p hp hwp)) ?_
  intro p hp hwp R x y hR hx hy
  have := hbig p hp hwp
  exact cell3_ok (op k) hR (by omega) (by omega) hx hy

theorem kernel3_cell (op : Op) (maxval : Nat) (int : Kind → List Nat → Nat) (arg : Option Nat) (stencil : Nat) :
    kernel3 F op maxval int arg stencil = fun k => cell3 (match k with
      | .byte => fun l => limit maxval (int .byte l)
      | .word => fun l => limit maxval (int .word l)
      | k => fun l => F.float3 op k arg stencil l) := by
  funext k
  cases k <;> rfl

/-- For integers the result is limited. -/
theorem three_int {al : Nat} (hal : AlignOk al) {c : PClip} (hv : ValidClip al c) (hw : Workable c.vi.format)
    (ht : c.vi.format.sampleType = stInteger) (name : String) (op : Op) (int : Kind → List Nat → Nat) (arg : Option Nat) (stencil : Nat)
    {planes : List Int} {process : List Bool}
    (hpr : ∀ p : Nat, p < 3 → process.getD p false = decide (Wanted planes p)) (hb : BigClip c.vi planes) :
    ∃ k C, KindOk c.vi.format k ∧
      genFinish al name c.vi none none (kernel3 F op (maxSample c.vi.format) int arg stencil) process = .ok C ∧ outInfo C [c] = some c.vi ∧
      ∀ n f, at? c n = some f → (c.vi.width = 0 → BigFrame f planes) →
        Gives al C [c] n f.fmt f.width f.height f.props fun p x y =>
          if Wanted planes p then ((min (int k (rows9 (smp al f p) (f.w p) (f.h p) x y)) (top f.fmt) : Nat) : Int) else smp al f p x y := by
  rw [kernel3_cell]
  obtain ⟨k, C, hk, e, ho, h⟩ := three_ok hal hv hw name (fun k => match k with
      | .byte => fun l => limit (maxSample c.vi.format) (int .byte l)
      | .word => fun l => limit (maxSample c.vi.format) (int .word l)
      | k => fun l => F.float3 op k arg stencil l) hpr hb
  refine ⟨k, C, hk, e, ho, ?_⟩
  intro n f hf hbf
  have := h n f hf hbf
  have ef := hv.fmt f (at_mem hf) hw.1
  obtain ⟨ht1, hk1⟩ := int_kind hk ht
  have hms : maxSample f.fmt = top f.fmt := by rw [ef]; exact maxSample_eq (hw.2.1 ht)
  have key : ∀ l, (min (int k l) (top f.fmt)) % 256 ^ bps f.fmt = min (int k l) (top f.fmt) := by
    intro l
    rw [ef]
    exact Nat.mod_eq_of_lt (by omega)
  rcases hk1 with ⟨rfl, _, _⟩ | ⟨rfl, _⟩
  · simp only [limit, ← ef, hms, key] at this
    exact this
  · simp only [limit, ← ef, hms, key] at this
    exact this

/-- For floats it is what the arithmetic says. -/
theorem three_float {al : Nat} (hal : AlignOk al) {c : PClip} (hv : ValidClip al c) (hw : Workable c.vi.format)
    (ht : c.vi.format.sampleType = stFloat) (name : String) (op : Op) (int : Kind → List Nat → Nat) (arg : Option Nat) (stencil : Nat)
    {planes : List Int} {process : List Bool}
    (hpr : ∀ p : Nat, p < 3 → process.getD p false = decide (Wanted planes p)) (hb : BigClip c.vi planes) :
    ∃ C, genFinish al name c.vi none none (kernel3 F op (maxSample c.vi.format) int arg stencil) process = .ok C ∧ outInfo C [c] = some c.vi ∧
      ∀ n f, at? c n = some f → (c.vi.width = 0 → BigFrame f planes) →
        Gives al C [c] n f.fmt f.width f.height f.props fun p x y =>
          if Wanted planes p then
            ((F.float3 op (floatKind f.fmt) arg stencil (rows9 (smp al f p) (f.w p) (f.h p) x y) % 256 ^ bps f.fmt : Nat) : Int)
          else smp al f p x y := by
  rw [kernel3_cell]
  obtain ⟨k, C, hk, e, ho, h⟩ := three_ok hal hv hw name (fun k => match k with
      | .byte => fun l => limit (maxSample c.vi.format) (int .byte l)
      | .word => fun l => limit (maxSample c.vi.format) (int .word l)
      | k => fun l => F.float3 op k arg stencil l) hpr hb
  refine ⟨C, e, ho, ?_⟩
  intro n f hf hbf
  have := h n f hf hbf
  have ef := hv.fmt f (at_mem hf) hw.1
  obtain ⟨ht1, hk1⟩ := float_kind hk ht
  rw [ef]
  rw [ef] at this
  rcases hk1 with rfl | rfl
  · rw [← ht1]; exact this
  · rw [← ht1]; exact this

/-- A frame that is too small. -/
theorem small_err {al : Nat} {c : PClip} (hv : ValidClip al c) {name : String}
    {cell : Kind → (Nat → Nat → Res Nat) → Nat → Nat → Nat → Nat → Res Nat} {planes : List Int} {process : List Bool}
    (hpr : ∀ p : Nat, p < 3 → process.getD p false = decide (Wanted planes p)) {C : Created}
    (hC : genFinish al name c.vi none none cell process = .ok C) {n : Nat} {f : Frm} (hf : at? c n = some f) (h0 : c.vi.width = 0)
    (hd : ¬ BigFrame f planes) (junk : Junk) : ∃ m, C.frame [c] n junk = .err m := by
  unfold genFinish at hC
  rw [if_neg (by omega)] at hC
  dsimp only at hC
  split at hC
  · cases hC
  · obtain ⟨rfl, _⟩ := create_eq_ok hC
    refine gen_small hv hpr hf (Or.inl h0) ?_ junk
    refine Classical.byContradiction fun hc => hd ?_
    intro p hp hwp
    refine Classical.byContradiction fun hn => hc ⟨p, hp, hwp, fun e => hn (checkDims_big.1 e)⟩

end VS.Generic
