import Verif.Pixel.Lemmas
import Verif.Point.Example

/-! # C72, C73 and C74: Invert, Limiter and Binarize -/

namespace VS.Pixel
open VS VS.Format VS.Map VS.Map.Spec VS.Pix VS.Pix.Spec VS.Point VS.Point.Spec VS.Pixel.Spec

variable (F : Floats)

/-! ## Invert -/

/-- Clips Invert accepts: the format may be variable. -/
def InvertOk (f : VFmt) : Prop :=
  (f.sampleType = stInteger → f.bitsPerSample ≤ 16) ∧ (f.sampleType = stFloat → f.bitsPerSample = 16 ∨ f.bitsPerSample = 32)

theorem okOrVariable_iff (f : VFmt) : okOrVariable f = true ↔ InvertOk f := by
  unfold okOrVariable InvertOk
  split <;> simp <;> omega

theorem invertCreate_ok {al : Nat} {c : PClip} (hv : ValidClip al c) {planes : List Int} (hf : InvertOk c.vi.format)
    (hp : PlanesOk planes) (mask : Bool) :
    ∃ process, (∀ p : Nat, p < 3 → process.getD p false = decide (Wanted planes p)) ∧
      invertCreate F al c.vi planes mask = .ok (.filter (pixFilter al (if mask then "InvertMask" else "Invert") c.vi (invertOp F mask) process)) := by
  obtain ⟨process, e, hpr⟩ := planes_ok (if mask then "InvertMask" else "Invert") hp
  refine ⟨process, hpr, ?_⟩
  unfold invertCreate
  dsimp only
  rw [(okOrVariable_iff _).2 hf, if_neg (by decide), getPlanes_eq, e, Res.bind_ok]
  exact create_ok hv.info

/-- C72: Invert and InvertMask reflect every integer sample of the chosen planes at the middle of the range: 0 becomes the largest value
and the other way round; samples above the range are taken for the largest value. The format of the clip may change. -/
theorem C72_invert {al : Nat} (hal : AlignOk al) {c : PClip} (hv : ValidClip al c) {planes : List Int} (hf : InvertOk c.vi.format)
    (hp : PlanesOk planes) (mask : Bool) :
    ∃ C, invertCreate F al c.vi planes mask = .ok C ∧ outInfo C [c] = some c.vi ∧
      ∀ n f, at? c n = some f → Workable f.fmt → f.fmt.sampleType = stInteger →
        Gives al C [c] n f.fmt f.width f.height f.props fun p x y =>
          if Wanted planes p then (top f.fmt : Int) - min (smp al f p x y) (top f.fmt) else smp al f p x y := by
  obtain ⟨process, hpr, e⟩ := invertCreate_ok F hv hf hp mask
  refine ⟨_, e, rfl, ?_⟩
  intro n f hfr hw ht
  refine pix_gives hal _ _ hv hpr hfr hw ?_
  intro k hk p x y _
  generalize smp al f p x y = v
  obtain ⟨h1, h2⟩ := int_kind hk ht
  have hmod : (2 ^ f.fmt.bitsPerSample.toNat - 1) % 65536 = top f.fmt := by
    show top f.fmt % 65536 = _
    refine Nat.mod_eq_of_lt (Nat.lt_of_lt_of_le h1 ?_)
    rcases h2 with ⟨_, e, _⟩ | ⟨_, e⟩ <;> rw [e] <;> decide
  unfold invertOp
  dsimp only
  rw [hmod]
  rcases h2 with ⟨rfl, e, e8⟩ | ⟨rfl, e⟩
  · have ht' : top f.fmt = 255 := by unfold top; rw [e8]; rfl
    dsimp only
    rw [e, ht']
    omega
  · dsimp only
    rw [Nat.mod_eq_of_lt (by omega)]
    omega

/-- C72: float samples become 1 - x, or -x in the chroma planes of YUV if the clip isn't a mask. -/
theorem C72_invert_float {al : Nat} (hal : AlignOk al) {c : PClip} (hv : ValidClip al c) {planes : List Int} (hf : InvertOk c.vi.format)
    (hp : PlanesOk planes) (mask : Bool) :
    ∃ C, invertCreate F al c.vi planes mask = .ok C ∧ outInfo C [c] = some c.vi ∧
      ∀ n f, at? c n = some f → Workable f.fmt → f.fmt.sampleType = stFloat →
        Gives al C [c] n f.fmt f.width f.height f.props fun p x y =>
          if Wanted planes p then
            ((if Centered f.fmt mask p then
                (if f.fmt.bitsPerSample = 32 then F.negate (smp al f p x y) else smp al f p x y ^^^ 2 ^ 15)
              else F.oneMinus (floatKind f.fmt) (smp al f p x y)) % 256 ^ bps f.fmt : Nat)
          else smp al f p x y := by
  obtain ⟨process, hpr, e⟩ := invertCreate_ok F hv hf hp mask
  refine ⟨_, e, rfl, ?_⟩
  intro n f hfr hw ht
  refine pix_gives hal _ _ hv hpr hfr hw ?_
  intro k hk p x y _
  obtain ⟨h1, h2⟩ := float_kind hk ht
  have cen : (!mask && decide (f.fmt.colorFamily = cfYUV) && decide (p > 0)) = decide (Centered f.fmt mask p) := by
    unfold Centered
    cases mask <;> by_cases h : 0 < p <;> by_cases h' : f.fmt.colorFamily = cfYUV <;> simp [h, h']
  unfold invertOp
  dsimp only
  rw [cen, ← h1]
  rcases h2 with rfl | rfl
  · rw [if_pos (c := f.fmt.bitsPerSample = 32) hk.2.1]
    simp only [decide_eq_true_eq]
  · rw [if_neg (c := f.fmt.bitsPerSample = 32) (by rw [hk.2.1]; decide)]
    simp only [decide_eq_true_eq]

/-- C72: other clips and planes are refused. -/
theorem C72_invert_refused (al : Nat) (vi : VInfo) {planes : List Int} (mask : Bool) (h : ¬ (InvertOk vi.format ∧ PlanesOk planes)) :
    ∃ m, invertCreate F al vi planes mask = .err m := by
  unfold invertCreate
  dsimp only
  cases e : okOrVariable vi.format with
  | false => exact ⟨_, rfl⟩
  | true =>
    obtain ⟨m, e'⟩ := planes_bad (if mask then "InvertMask" else "Invert") (fun hp => h ⟨(okOrVariable_iff _).1 e, hp⟩)
    rw [if_neg (by decide), getPlanes_eq, e']
    exact ⟨m, rfl⟩

/-- C72: a frame of a variable format that can't be processed is an error, never a wrong frame. -/
theorem C72_frame_refused {al : Nat} {c : PClip} (hv : ValidClip al c) {planes : List Int} (mask : Bool) {C : Created}
    (hC : invertCreate F al c.vi planes mask = .ok C) {n : Nat} {f : Frm} (hf : at? c n = some f) (hw : ¬ Workable f.fmt) (junk : Junk) :
    ∃ m, C.frame [c] n junk = .err m := by
  unfold invertCreate at hC
  dsimp only at hC
  split at hC
  · cases hC
  · obtain ⟨process, _, hC⟩ := bind_eq_ok hC
    obtain ⟨rfl, _⟩ := create_eq_ok hC
    refine ⟨_, frame_err (m := (if mask then "InvertMask" else "Invert") ++ ": Input frame must be constant format 8..16 bit integer or 16-32 bit float") ?_⟩
    show (getFrameFilter [c] [(0, n)] 0 n >>= fun s1 => pixFrame al _ _ process s1 junk) = _
    rw [get_ok (i := 0) rfl hv (by simp) hf, Res.bind_ok]
    unfold pixFrame
    have : is8to16orFloat f.fmt = false := by
      cases e : is8to16orFloat f.fmt with
      | false => rfl
      | true => exact absurd ((workable_iff _).1 e) hw
    rw [this]
    rfl

/-- C72: inverting twice gives the same samples back. `d` is a clip with the frames Invert gives. -/
theorem C72_twice {al : Nat} (hal : AlignOk al) {c d : PClip} (hv : ValidClip al c) (hd : ValidClip al d) {planes : List Int}
    (hf : InvertOk c.vi.format) (hf' : InvertOk d.vi.format) (hp : PlanesOk planes) (mask : Bool) :
    ∃ C D, invertCreate F al c.vi planes mask = .ok C ∧ invertCreate F al d.vi planes mask = .ok D ∧
      ∀ n f g junk, at? c n = some f → Workable f.fmt → f.fmt.sampleType = stInteger → InRange al f → C.frame [c] n junk = .ok g →
        at? d n = some g → ∀ junk', ∃ r, D.frame [d] n junk' = .ok r ∧ r.fmt = f.fmt ∧ r.width = f.width ∧ r.height = f.height ∧
          ∀ p x y : Nat, (p : Int) < f.fmt.numPlanes → x < f.w p → y < f.h p → smp al r p x y = smp al f p x y := by
  obtain ⟨C, e, _, h⟩ := C72_invert F hal hv hf hp mask
  obtain ⟨D, e', _, h'⟩ := C72_invert F hal hd hf' hp mask
  refine ⟨C, D, e, e', ?_⟩
  intro n f g junk hfr hw ht hin hg hgr junk'
  obtain ⟨g', e1, v1, a1, a2, a3, a4, a5⟩ := h n f hfr hw ht junk
  cases hg.symm.trans e1
  obtain ⟨r, e2, v2, b1, b2, b3, b4, b5⟩ := h' n g hgr (by rw [a1]; exact hw) (by rw [a1]; exact ht) junk'
  refine ⟨r, e2, b1.trans a1, b2.trans a2, b3.trans a3, ?_⟩
  intro p x y hpl hx hy
  have hx' : x < g.w p := by rw [w_eq a1 a2]; exact hx
  have hy' : y < g.h p := by rw [h_eq a1 a3]; exact hy
  have t1 := a5 p x y hpl hx' hy'
  have t2 := b5 p x y (by rw [a1]; exact hpl) (by rw [w_eq b1 b2]; exact hx') (by rw [h_eq b1 b3]; exact hy')
  dsimp only at t1 t2
  have hr := hin p x y hpl hx hy
  rw [a1] at t2
  have : top f.fmt + 1 = 2 ^ f.fmt.bitsPerSample.toNat := by
    have := Nat.pow_pos (n := f.fmt.bitsPerSample.toNat) (show 0 < 2 by decide)
    unfold top
    omega
  by_cases w : Wanted planes p
  · rw [if_pos w] at t1 t2
    omega
  · rw [if_neg w] at t1 t2
    omega

/-! ## Limiter -/

theorem limit_ranges {name arg : String} {f : VFmt} (hs : isValidVideoStruct f = true) (hw : Workable f) (ht : f.sampleType = stInteger)
    {vals : List Nat} (hb : InBounds F f vals) (mode : Mode) (mask : Bool) {d : Nat} (hd : (rangeDefault F f mode false).1 = d)
    (hd' : (rangeDefault F f mode true).1 = d) (hdt : d ≤ top f) :
    ∃ l, rangeArgs F name arg f vals mode mask = .ok l ∧ ∀ p, p < 3 → IntFor F vals d p (l.getD p (0, 0)).1 ∧ (l.getD p (0, 0)).1 ≤ top f := by
  have hnp := (fmtOk hs hw.1).planes
  obtain ⟨l, e, h⟩ := range_ok F name arg (by omega) hb.1 mode mask (by
    intro b hbm
    obtain ⟨q, h1, h2, h3⟩ := hb.2 b hbm
    obtain ⟨v, e, _⟩ := given_int F name arg ht (hw.2.1 ht) h1 h2 h3
    exact ⟨_, e⟩)
  refine ⟨l, e, ?_⟩
  intro p hp
  rcases h p hp with ⟨h1, h2⟩ | ⟨b, h1, h2, h3⟩
  · have : (l.getD p (0, 0)).1 = d := by
      rw [h2]
      cases decide (Centered f mask p)
      · exact hd
      · exact hd'
    exact ⟨Or.inl ⟨h1, this⟩, by omega⟩
  · obtain ⟨q, g1, g2, g3⟩ := hb.2 b h2
    obtain ⟨v, e, g4, g5⟩ := given_int F name arg ht (hw.2.1 ht) g1 g2 g3
    rw [h3] at e
    injection e with e
    rw [e]
    exact ⟨Or.inr ⟨b, q, h1, g1, g5⟩, g4⟩

theorem limit_int {a b v N : Nat} (h : a ≤ b) (hb : b < N) (hv : v < N) :
    ((min b (max a v) % N : Nat) : Int) = if v < a then (a : Int) else if b < v then (b : Int) else (v : Int) := by
  rw [Nat.mod_eq_of_lt (by omega)]
  split
  · omega
  · split <;> omega

theorem top_mod {f : VFmt} (h : f.bitsPerSample ≤ 16) : (2 ^ f.bitsPerSample.toNat - 1) % 65536 = top f := by
  have : 2 ^ f.bitsPerSample.toNat ≤ 2 ^ 16 := Nat.pow_le_pow_right (by decide) (by omega)
  have := Nat.pow_pos (n := f.bitsPerSample.toNat) (show 0 < 2 by decide)
  exact Nat.mod_eq_of_lt (by omega)

/-- C73: Limiter limits every integer sample of the chosen planes to the range from `min` to `max`; these are the given numbers
rounded to integers, for every plane its own or that of the plane before, or the whole range. It refuses the arguments if `min` is
bigger than `max`. -/
theorem C73_limiter {al : Nat} (hal : AlignOk al) {c : PClip} (hv : ValidClip al c) {planes : List Int} (hw : Workable c.vi.format)
    (ht : c.vi.format.sampleType = stInteger) (hp : PlanesOk planes) {mn mx : List Nat} (hmn : InBounds F c.vi.format mn)
    (hmx : InBounds F c.vi.format mx) :
    ∃ lo hi : Nat → Nat, (∀ p, p < 3 → IntFor F mn 0 p (lo p) ∧ IntFor F mx (top c.vi.format) p (hi p)) ∧
      ((∃ p, p < 3 ∧ hi p < lo p) → ∃ m, limitCreate F al c.vi planes mn mx = .err m) ∧
      ((∀ p, p < 3 → lo p ≤ hi p) → ∃ C, limitCreate F al c.vi planes mn mx = .ok C ∧ outInfo C [c] = some c.vi ∧
        ∀ n f, at? c n = some f → Gives al C [c] n c.vi.format f.width f.height f.props fun p x y =>
          if Wanted planes p then
            (if smp al f p x y < lo p then lo p else if hi p < smp al f p x y then hi p else smp al f p x y)
          else smp al f p x y) := by
  have h16 := hw.2.1 ht
  have hnp := (fmtOk (struct_of hv) hw.1).planes
  obtain ⟨lo, e1, h1⟩ := limit_ranges F (name := "Limiter") (arg := "min") (struct_of hv) hw ht hmn .lower false (d := 0) rfl rfl (by omega)
  obtain ⟨hi, e2, h2⟩ := limit_ranges F (name := "Limiter") (arg := "max") (struct_of hv) hw ht hmx .upper false (d := top c.vi.format)
    (top_mod h16) (top_mod h16) (by omega)
  obtain ⟨process, e3, hpr⟩ := planes_ok "Limiter" hp
  have ew : wrongOrder F c.vi.format lo hi = true ↔ ∃ p, p < 3 ∧ (hi.getD p (0, 0)).1 < (lo.getD p (0, 0)).1 := by
    unfold wrongOrder
    rw [ht]
    have n1 : decide (stInteger = stFloat) = false := by decide
    simp only [decide_true, Bool.true_and, n1, Bool.false_and, Bool.or_false, List.any_cons, List.any_nil, Bool.or_eq_true,
      decide_eq_true_eq, or_false]
    constructor
    · rintro (h | h | h)
      · exact ⟨0, by omega, h⟩
      · exact ⟨1, by omega, h⟩
      · exact ⟨2, by omega, h⟩
    · rintro ⟨p, hp, h⟩
      match p, hp, h with
      | 0, _, h => exact Or.inl h
      | 1, _, h => exact Or.inr (Or.inl h)
      | 2, _, h => exact Or.inr (Or.inr h)
  have ec : limitCreate F al c.vi planes mn mx = if wrongOrder F c.vi.format lo hi then .err "Limiter: min bigger than max"
      else create (pixFilter al "Limiter" c.vi (limitOp F lo hi) process) := by
    unfold limitCreate
    rw [(workable_iff _).2 hw, if_neg (by decide), getPlanes_eq, e3, Res.bind_ok, e1, Res.bind_ok, e2, Res.bind_ok]
  refine ⟨fun p => (lo.getD p (0, 0)).1, fun p => (hi.getD p (0, 0)).1, fun p hp => ⟨(h1 p hp).1, (h2 p hp).1⟩, ?_, ?_⟩
  · intro h
    rw [ec, if_pos (ew.2 h)]
    exact ⟨_, rfl⟩
  · intro h
    refine ⟨.filter (pixFilter al "Limiter" c.vi (limitOp F lo hi) process), ?_, rfl, ?_⟩
    · rw [ec, if_neg]
      · exact create_ok hv.info
      · rw [ew]
        rintro ⟨p, hp, hlt⟩
        have := h p hp
        dsimp only at this
        omega
    · intro n f hf
      have ef := hv.fmt f (at_mem hf) hw.1
      rw [← ef]
      refine pix_gives hal _ _ hv hpr hf (by rw [ef]; exact hw) ?_
      intro k hk p x y hpl
      rw [ef] at hk hpl ⊢
      have hp3 : p < 3 := by omega
      have q1 := (h1 p hp3).2
      have q2 := (h2 p hp3).2
      have q3 := h p hp3
      dsimp only at q3 ⊢
      have hlt := smp_lt (al := al) f p x y
      rw [ef] at hlt
      unfold limitOp
      dsimp only
      obtain ⟨i1, i2⟩ := int_kind hk ht
      rcases i2 with ⟨rfl, e, _⟩ | ⟨rfl, e⟩
      · rw [e] at i1 hlt ⊢
        dsimp only
        rw [Nat.mod_eq_of_lt (show (lo.getD p (0, 0)).1 < 256 by omega), Nat.mod_eq_of_lt (show (hi.getD p (0, 0)).1 < 256 by omega)]
        exact limit_int q3 (by omega) hlt
      · rw [e] at i1 hlt ⊢
        dsimp only
        exact limit_int q3 (by omega) hlt

theorem args_bad (name arg : String) {f : VFmt} (hs : isValidVideoStruct f = true) (hw : Workable f) {vals : List Nat} (mode : Mode)
    (mask : Bool)
    (h : f.numPlanes < vals.length ∨
      (f.sampleType = stInteger ∧ (∀ b ∈ vals, ∃ q, F.value b = some q ∧ -2 ^ 62 ≤ q ∧ q ≤ 2 ^ 62 ∧
        ((0 ≤ q ∧ q ≤ top f) ∨ q ≤ -2 ∨ (top f : Rat) + 1 ≤ q)) ∧
        ∃ b q, b ∈ vals ∧ F.value b = some q ∧ (q ≤ -2 ∨ (top f : Rat) + 1 ≤ q))) :
    ∃ m, rangeArgs F name arg f vals mode mask = .err m := by
  have hnp := (fmtOk hs hw.1).planes
  rcases h with h | ⟨ht, hall, hbad⟩
  · exact ⟨name ++ ": " ++ arg ++ " has more values specified than there are planes", by
      unfold rangeArgs
      rw [if_pos (by omega)]⟩
  · refine range_bad F name arg (f := f) (by omega) (vals := vals) mode mask ?_ (Or.inr ?_)
    · intro b hb
      obtain ⟨q, g1, g2, g3, g4⟩ := hall b hb
      rcases g4 with g4 | g4
      · obtain ⟨v, e, _⟩ := given_int F name arg ht (hw.2.1 ht) g1 g4.1 g4.2
        exact Or.inl ⟨_, e⟩
      · exact Or.inr (given_bad F name arg ht (hw.2.1 ht) g1 g2 g3 g4)
    · obtain ⟨b, q, hb, g1, g4⟩ := hbad
      obtain ⟨q', g1', g2, g3, _⟩ := hall b hb
      cases g1.symm.trans g1'
      exact ⟨b, hb, given_bad F name arg ht (hw.2.1 ht) g1 g2 g3 g4⟩

/-- C73: other clips, planes and numbers of arguments, and numbers out of the range of the samples, are refused. -/
theorem C73_limiter_refused {al : Nat} {c : PClip} (hv : ValidClip al c) {planes : List Int} {mn mx : List Nat}
    (h : ¬ Workable c.vi.format ∨ ¬ PlanesOk planes ∨ c.vi.format.numPlanes < mn.length ∨
      (c.vi.format.sampleType = stInteger ∧ (∀ b ∈ mn, ∃ q, F.value b = some q ∧ -2 ^ 62 ≤ q ∧ q ≤ 2 ^ 62 ∧
        ((0 ≤ q ∧ q ≤ top c.vi.format) ∨ q ≤ -2 ∨ (top c.vi.format : Rat) + 1 ≤ q)) ∧
        ∃ b q, b ∈ mn ∧ F.value b = some q ∧ (q ≤ -2 ∨ (top c.vi.format : Rat) + 1 ≤ q))) :
    ∃ m, limitCreate F al c.vi planes mn mx = .err m := by
  unfold limitCreate
  cases e : is8to16orFloat c.vi.format with
  | false => exact ⟨_, rfl⟩
  | true =>
    have hw := (workable_iff _).1 e
    have hnp := (fmtOk (struct_of hv) hw.1).planes
    rw [if_neg (by decide), getPlanes_eq]
    by_cases hp : PlanesOk planes
    · obtain ⟨process, e3, _⟩ := planes_ok "Limiter" hp
      rw [e3, Res.bind_ok]
      obtain ⟨m, e⟩ := args_bad F "Limiter" "min" (struct_of hv) hw .lower false
        (h.resolve_left (fun h => h hw) |>.resolve_left (fun h => h hp))
      rw [e]
      exact ⟨m, rfl⟩
    · obtain ⟨m, e⟩ := planes_bad "Limiter" hp
      rw [e]
      exact ⟨m, rfl⟩

/-- The single precision arguments. -/
theorem float_ranges {name arg : String} {f : VFmt} (hnp : f.numPlanes ≤ 3) (ht : f.sampleType = stFloat)
    {vals : List Nat} (hl : (vals.length : Int) ≤ f.numPlanes) (mode : Mode) (mask : Bool) (d : Bool → Rat)
    (hd : ∀ uv, (rangeDefault F f mode uv).2 = F.const (d uv)) :
    ∃ l, rangeArgs F name arg f vals mode mask = .ok l ∧
      ∀ p, p < 3 → (l.getD p (0, 0)).2 = floatFor F vals (d (decide (Centered f mask p))) p := by
  have n1 : (stFloat : Int) ≠ stInteger := by decide
  have hg : ∀ b, rangeGiven F name arg f b = .ok (0, F.single b) := by
    intro b
    unfold rangeGiven
    rw [if_neg (by rw [ht]; exact n1)]
  obtain ⟨l, e, h⟩ := range_ok F name arg hnp hl mode mask (fun b _ => ⟨_, hg b⟩)
  refine ⟨l, e, ?_⟩
  intro p hp
  unfold floatFor
  rcases h p hp with ⟨h1, h2⟩ | ⟨b, h1, h2, h3⟩
  · rw [h2, h1, hd]
    rfl
  · rw [h1]
    rw [hg] at h3
    injection h3 with h3
    rw [← h3]

/-- C73: float samples are limited in the same way to the single precision numbers next to the arguments; the range without
arguments is that from 0 to 1, or from -1/2 to 1/2 in the chroma planes of YUV. -/
theorem C73_limiter_float {al : Nat} (hal : AlignOk al) {c : PClip} (hv : ValidClip al c) {planes : List Int} (hw : Workable c.vi.format)
    (ht : c.vi.format.sampleType = stFloat) (hp : PlanesOk planes) {mn mx : List Nat} (hmn : (mn.length : Int) ≤ c.vi.format.numPlanes)
    (hmx : (mx.length : Int) ≤ c.vi.format.numPlanes) (lo hi : Nat → Nat)
    (hlo : lo = fun p => floatFor F mn (if Centered c.vi.format false p then -1 / 2 else 0) p)
    (hhi : hi = fun p => floatFor F mx (if Centered c.vi.format false p then 1 / 2 else 1) p) :
    ((∃ p, p < 3 ∧ F.less .single (hi p) (lo p) = true) → ∃ m, limitCreate F al c.vi planes mn mx = .err m) ∧
    ((∀ p, p < 3 → F.less .single (hi p) (lo p) = false) → ∃ C, limitCreate F al c.vi planes mn mx = .ok C ∧
      outInfo C [c] = some c.vi ∧ ∀ n f, at? c n = some f → Gives al C [c] n c.vi.format f.width f.height f.props fun p x y =>
        if Wanted planes p then (F.limit (floatKind c.vi.format) (lo p) (hi p) (smp al f p x y) % 256 ^ bps c.vi.format : Nat)
        else smp al f p x y) := by
  have hnp := (fmtOk (struct_of hv) hw.1).planes
  have n1 : (stFloat : Int) ≠ stInteger := by decide
  obtain ⟨l, e1, h1⟩ := float_ranges F (name := "Limiter") (arg := "min") (by omega) ht hmn .lower false
    (fun uv => if uv then -1 / 2 else 0) (fun _ => rfl)
  obtain ⟨h, e2, h2⟩ := float_ranges F (name := "Limiter") (arg := "max") (by omega) ht hmx .upper false
    (fun uv => if uv then 1 / 2 else 1) (fun _ => rfl)
  have h1 : ∀ p, p < 3 → (l.getD p (0, 0)).2 = lo p := by
    intro p hp
    rw [h1 p hp, hlo]
    simp
  have h2 : ∀ p, p < 3 → (h.getD p (0, 0)).2 = hi p := by
    intro p hp
    rw [h2 p hp, hhi]
    simp
  obtain ⟨process, e3, hpr⟩ := planes_ok "Limiter" hp
  have ew : wrongOrder F c.vi.format l h = true ↔ ∃ p, p < 3 ∧ F.less .single (hi p) (lo p) = true := by
    unfold wrongOrder
    rw [ht]
    have n1 : decide (stFloat = stInteger) = false := by decide
    simp only [decide_true, Bool.true_and, n1, Bool.false_and, Bool.false_or, List.any_cons, List.any_nil, Bool.or_eq_true,
      h1 0 (by omega), h1 1 (by omega), h1 2 (by omega), h2 0 (by omega), h2 1 (by omega), h2 2 (by omega), Bool.or_false]
    constructor
    · rintro (h | h | h)
      · exact ⟨0, by omega, h⟩
      · exact ⟨1, by omega, h⟩
      · exact ⟨2, by omega, h⟩
    · rintro ⟨p, hp, h⟩
      match p, hp, h with
      | 0, _, h => exact Or.inl h
      | 1, _, h => exact Or.inr (Or.inl h)
      | 2, _, h => exact Or.inr (Or.inr h)
  have ec : limitCreate F al c.vi planes mn mx = if wrongOrder F c.vi.format l h then .err "Limiter: min bigger than max"
      else create (pixFilter al "Limiter" c.vi (limitOp F l h) process) := by
    unfold limitCreate
    rw [(workable_iff _).2 hw, if_neg (by decide), getPlanes_eq, e3, Res.bind_ok, e1, Res.bind_ok, e2, Res.bind_ok]
  constructor
  · intro h
    rw [ec, if_pos (ew.2 h)]
    exact ⟨_, rfl⟩
  · intro hno
    refine ⟨.filter (pixFilter al "Limiter" c.vi (limitOp F l h) process), ?_, rfl, ?_⟩
    · rw [ec, if_neg]
      · exact create_ok hv.info
      · rw [ew]
        rintro ⟨p, hp, hlt⟩
        rw [hno p hp] at hlt
        exact absurd hlt (by decide)
    · intro n f hf
      have ef := hv.fmt f (at_mem hf) hw.1
      rw [← ef]
      refine pix_gives hal _ _ hv hpr hf (by rw [ef]; exact hw) ?_
      intro k hk p x y hpl
      rw [ef] at hk hpl ⊢
      have hp3 : p < 3 := by omega
      obtain ⟨i1, i2⟩ := float_kind hk ht
      rw [← i1, ← h1 p hp3, ← h2 p hp3]
      unfold limitOp
      rcases i2 with rfl | rfl <;> rfl

/-! ## Binarize -/

/-- C74: Binarize and BinarizeMask make every integer sample of the chosen planes `v0` if it is smaller than `threshold` and `v1` if
it isn't. Without arguments these are 0, the largest value and the middle of the range. -/
theorem C74_binarize {al : Nat} (hal : AlignOk al) {c : PClip} (hv : ValidClip al c) {planes : List Int} (hw : Workable c.vi.format)
    (ht : c.vi.format.sampleType = stInteger) (hp : PlanesOk planes) {v0 v1 thr : List Nat} (h0 : InBounds F c.vi.format v0)
    (h1 : InBounds F c.vi.format v1) (h2 : InBounds F c.vi.format thr) (mask : Bool) :
    ∃ a b t : Nat → Nat, (∀ p, p < 3 → IntFor F v0 0 p (a p) ∧ IntFor F v1 (top c.vi.format) p (b p) ∧
        IntFor F thr (2 ^ (c.vi.format.bitsPerSample.toNat - 1)) p (t p)) ∧
      ∃ C, binarizeCreate F al c.vi planes v0 v1 thr mask = .ok C ∧ outInfo C [c] = some c.vi ∧
        ∀ n f, at? c n = some f → Gives al C [c] n c.vi.format f.width f.height f.props fun p x y =>
          if Wanted planes p then (if smp al f p x y < t p then a p else b p) else smp al f p x y := by
  have h16 := hw.2.1 ht
  have h8 := (small_depth (struct_of hv) hw ht)
  have hnp := (fmtOk (struct_of hv) hw.1).planes
  have hN : 2 ^ c.vi.format.bitsPerSample.toNat = 2 * 2 ^ (c.vi.format.bitsPerSample.toNat - 1) := by
    rw [← Nat.pow_succ']
    congr 1
    omega
  have hmid : 2 ^ c.vi.format.bitsPerSample.toNat / 2 % 65536 = 2 ^ (c.vi.format.bitsPerSample.toNat - 1) := by
    have : 2 ^ c.vi.format.bitsPerSample.toNat ≤ 2 ^ 16 := Nat.pow_le_pow_right (by decide) (by omega)
    rw [hN] at this ⊢
    omega
  have hmid' : 2 ^ (c.vi.format.bitsPerSample.toNat - 1) ≤ top c.vi.format := by
    have := Nat.pow_pos (n := c.vi.format.bitsPerSample.toNat - 1) (show 0 < 2 by decide)
    unfold top
    omega
  obtain ⟨la, e1, g1⟩ := limit_ranges F (name := if mask then "BinarizeMask" else "Binarize") (arg := "v0") (struct_of hv) hw ht h0
    .lower mask (d := 0) rfl rfl (by omega)
  obtain ⟨lb, e2, g2⟩ := limit_ranges F (name := if mask then "BinarizeMask" else "Binarize") (arg := "v1") (struct_of hv) hw ht h1
    .upper mask (d := top c.vi.format) (top_mod h16) (top_mod h16) (by omega)
  obtain ⟨lt, e3, g3⟩ := limit_ranges F (name := if mask then "BinarizeMask" else "Binarize") (arg := "threshold") (struct_of hv) hw ht h2
    .middle mask (d := 2 ^ (c.vi.format.bitsPerSample.toNat - 1)) hmid hmid hmid'
  obtain ⟨process, e4, hpr⟩ := planes_ok (if mask then "BinarizeMask" else "Binarize") hp
  refine ⟨fun p => (la.getD p (0, 0)).1, fun p => (lb.getD p (0, 0)).1, fun p => (lt.getD p (0, 0)).1,
    fun p hp => ⟨(g1 p hp).1, (g2 p hp).1, (g3 p hp).1⟩,
    .filter (pixFilter al (if mask then "BinarizeMask" else "Binarize") c.vi (binarizeOp F la lb lt) process), ?_, rfl, ?_⟩
  · unfold binarizeCreate
    dsimp only
    rw [(workable_iff _).2 hw, if_neg (by decide), getPlanes_eq, e4, Res.bind_ok, e1, Res.bind_ok, e2, Res.bind_ok, e3, Res.bind_ok]
    exact create_ok hv.info
  · intro n f hf
    have ef := hv.fmt f (at_mem hf) hw.1
    rw [← ef]
    refine pix_gives hal _ _ hv hpr hf (by rw [ef]; exact hw) ?_
    intro k hk p x y hpl
    rw [ef] at hk hpl ⊢
    have hp3 : p < 3 := by omega
    have q1 := (g1 p hp3).2
    have q2 := (g2 p hp3).2
    obtain ⟨i1, i2⟩ := int_kind hk ht
    unfold binarizeOp
    rcases i2 with ⟨rfl, e, _⟩ | ⟨rfl, e⟩
    · rw [e] at i1 ⊢
      dsimp only
      rw [Nat.mod_eq_of_lt (show (la.getD p (0, 0)).1 < 256 by omega), Nat.mod_eq_of_lt (show (lb.getD p (0, 0)).1 < 256 by omega)]
      split
      · rw [Nat.mod_eq_of_lt (by omega)]
      · rw [Nat.mod_eq_of_lt (by omega)]
    · rw [e] at i1 ⊢
      dsimp only
      split
      · rw [Nat.mod_eq_of_lt (by omega)]
      · rw [Nat.mod_eq_of_lt (by omega)]

/-- C74: float samples are compared with the single precision threshold; the defaults are 0, 1 and 1/2, or -1/2, 1/2 and 0 in the
chroma planes of YUV if the clip isn't a mask. -/
theorem C74_binarize_float {al : Nat} (hal : AlignOk al) {c : PClip} (hv : ValidClip al c) {planes : List Int} (hw : Workable c.vi.format)
    (ht : c.vi.format.sampleType = stFloat) (hp : PlanesOk planes) {v0 v1 thr : List Nat} (h0 : (v0.length : Int) ≤ c.vi.format.numPlanes)
    (h1 : (v1.length : Int) ≤ c.vi.format.numPlanes) (h2 : (thr.length : Int) ≤ c.vi.format.numPlanes) (mask : Bool) :
    ∃ C, binarizeCreate F al c.vi planes v0 v1 thr mask = .ok C ∧ outInfo C [c] = some c.vi ∧
      ∀ n f, at? c n = some f → Gives al C [c] n c.vi.format f.width f.height f.props fun p x y =>
        if Wanted planes p then
          ((if F.less (floatKind c.vi.format) (smp al f p x y) (floatFor F thr (if Centered c.vi.format mask p then 0 else 1 / 2) p) then
            F.store (floatKind c.vi.format) (floatFor F v0 (if Centered c.vi.format mask p then -1 / 2 else 0) p)
          else F.store (floatKind c.vi.format) (floatFor F v1 (if Centered c.vi.format mask p then 1 / 2 else 1) p)) %
            256 ^ bps c.vi.format : Nat)
        else smp al f p x y := by
  have hnp := (fmtOk (struct_of hv) hw.1).planes
  obtain ⟨la, e1, g1⟩ := float_ranges F (name := if mask then "BinarizeMask" else "Binarize") (arg := "v0") (by omega) ht h0 .lower mask
    (fun uv => if uv then -1 / 2 else 0) (fun _ => rfl)
  obtain ⟨lb, e2, g2⟩ := float_ranges F (name := if mask then "BinarizeMask" else "Binarize") (arg := "v1") (by omega) ht h1 .upper mask
    (fun uv => if uv then 1 / 2 else 1) (fun _ => rfl)
  obtain ⟨lt, e3, g3⟩ := float_ranges F (name := if mask then "BinarizeMask" else "Binarize") (arg := "threshold") (by omega) ht h2
    .middle mask (fun uv => if uv then 0 else 1 / 2) (fun _ => rfl)
  simp only [decide_eq_true_eq] at g1 g2 g3
  obtain ⟨process, e4, hpr⟩ := planes_ok (if mask then "BinarizeMask" else "Binarize") hp
  refine ⟨.filter (pixFilter al (if mask then "BinarizeMask" else "Binarize") c.vi (binarizeOp F la lb lt) process), ?_, rfl, ?_⟩
  · unfold binarizeCreate
    dsimp only
    rw [(workable_iff _).2 hw, if_neg (by decide), getPlanes_eq, e4, Res.bind_ok, e1, Res.bind_ok, e2, Res.bind_ok, e3, Res.bind_ok]
    exact create_ok hv.info
  · intro n f hf
    have ef := hv.fmt f (at_mem hf) hw.1
    rw [← ef]
    refine pix_gives hal _ _ hv hpr hf (by rw [ef]; exact hw) ?_
    intro k hk p x y hpl
    rw [ef] at hk hpl ⊢
    have hp3 : p < 3 := by omega
    obtain ⟨i1, i2⟩ := float_kind hk ht
    rw [← i1, ← g1 p hp3, ← g2 p hp3, ← g3 p hp3]
    unfold binarizeOp
    rcases i2 with rfl | rfl <;> rfl

/-- C74: other clips, planes and numbers of arguments, and numbers out of the range of the samples, are refused. -/
theorem C74_binarize_refused {al : Nat} {c : PClip} (hv : ValidClip al c) {planes : List Int} {v0 v1 thr : List Nat} (mask : Bool)
    (h : ¬ Workable c.vi.format ∨ ¬ PlanesOk planes ∨ c.vi.format.numPlanes < v0.length ∨
      (c.vi.format.sampleType = stInteger ∧ (∀ b ∈ v0, ∃ q, F.value b = some q ∧ -2 ^ 62 ≤ q ∧ q ≤ 2 ^ 62 ∧
        ((0 ≤ q ∧ q ≤ top c.vi.format) ∨ q ≤ -2 ∨ (top c.vi.format : Rat) + 1 ≤ q)) ∧
        ∃ b q, b ∈ v0 ∧ F.value b = some q ∧ (q ≤ -2 ∨ (top c.vi.format : Rat) + 1 ≤ q))) :
    ∃ m, binarizeCreate F al c.vi planes v0 v1 thr mask = .err m := by
  unfold binarizeCreate
  dsimp only
  generalize (if mask = true then "BinarizeMask" else "Binarize") = name
  cases e : is8to16orFloat c.vi.format with
  | false => exact ⟨_, rfl⟩
  | true =>
    have hw := (workable_iff _).1 e
    rw [if_neg (by decide), getPlanes_eq]
    by_cases hp : PlanesOk planes
    · obtain ⟨process, e3, _⟩ := planes_ok name hp
      rw [e3, Res.bind_ok]
      obtain ⟨m, e⟩ := args_bad F name "v0" (struct_of hv) hw .lower mask
        (h.resolve_left (fun h => h hw) |>.resolve_left (fun h => h hp))
      rw [e]
      exact ⟨m, rfl⟩
    · obtain ⟨m, e⟩ := planes_bad name hp
      rw [e]
      exact ⟨m, rfl⟩

/-! ## Arguments that aren't checked -/

theorem trunc_minus {r : Rat} (h1 : -1 < r) (h2 : r < 0) : r.num.tdiv r.den = 0 := by
  have g1 : -1 * (r.den : Int) < r.num * 1 := (Rat.lt_iff _ _).1 h1
  have g2 : r.num < 0 := by
    have : r.num * 1 < 0 * r.den := (Rat.lt_iff _ _).1 h2
    omega
  have : r.num.tdiv r.den = -((-r.num).tdiv r.den) := by rw [Int.neg_tdiv]; omega
  rw [this, Int.tdiv_eq_ediv_of_nonneg (by omega), Int.ediv_eq_zero_of_lt (by omega) (by omega)]
  rfl

/-- C73 doesn't hold for all numbers: -1 is no sample but Limiter doesn't refuse it, as the fraction of -1 + 1/2 is cut off towards
zero. The same for the arguments of Binarize. -/
theorem C73_negative_refuted {al : Nat} {c : PClip} (hv : ValidClip al c) (hw : Workable c.vi.format)
    (ht : c.vi.format.sampleType = stInteger) {b : Nat} (h : F.value b = some (-1)) :
    ¬ InBounds F c.vi.format [b] ∧ ∃ C, limitCreate F al c.vi [] [b] [] = .ok C := by
  constructor
  · rintro ⟨_, hb⟩
    obtain ⟨q, g1, g2, _⟩ := hb b (by simp)
    rw [h] at g1
    injection g1 with g1
    rw [← g1] at g2
    exact absurd g2 (by decide +kernel)
  · obtain ⟨r, e, hr⟩ := F.half_close b _ h
    have hr' : rabs (r - (-1 + 1 / 2)) * 2 ^ 53 ≤ 1 / 2 := by
      have : rabs (-1 + 1 / 2) = 1 / 2 := by decide +kernel
      rw [this] at hr
      exact hr
    have hb : rabs (r - (-1 + 1 / 2)) ≤ 1 / 4 := by grind
    obtain ⟨b1, b2⟩ := rabs_le.1 hb
    have g : rangeGiven F "Limiter" "min" c.vi.format b = .ok (0, 0) := by
      unfold rangeGiven
      rw [if_pos ht, e]
      have : toI64 (some r) = .ok 0 := by
        unfold toI64
        dsimp only
        rw [if_pos ⟨by grind, by grind⟩, trunc_minus (by grind) (by grind)]
      rw [this, Res.bind_ok, if_neg]
      · rfl
      · have := Nat.pow_pos (n := c.vi.format.bitsPerSample.toNat) (show 0 < 2 by decide)
        have : ((2 : Int) ^ c.vi.format.bitsPerSample.toNat) = (2 ^ c.vi.format.bitsPerSample.toNat : Nat) := by simp
        omega
    have hnp := (fmtOk (struct_of hv) hw.1).planes
    obtain ⟨lo, e1, h1⟩ := range_ok F "Limiter" "min" (f := c.vi.format) (by omega) (vals := [b])
      (by show (1 : Int) ≤ _; omega) .lower false (by intro b' hb'; rw [List.mem_singleton.1 hb']; exact ⟨_, g⟩)
    obtain ⟨hi, e2, h2⟩ := limit_ranges F (name := "Limiter") (arg := "max") (struct_of hv) hw ht (vals := [])
      ⟨by show (0 : Int) ≤ _; omega, by simp⟩ .upper false (d := top c.vi.format) (top_mod (hw.2.1 ht)) (top_mod (hw.2.1 ht)) (by omega)
    obtain ⟨process, e3, _⟩ := planes_ok "Limiter" (planes := []) (by decide)
    have ew : wrongOrder F c.vi.format lo hi = false := by
      have hz : ∀ p, p < 3 → (lo.getD p (0, 0)).1 = 0 := by
        intro p hp
        rcases h1 p hp with ⟨h, _⟩ | ⟨b', _, hb', h⟩
        · cases h
        · rw [List.mem_singleton.1 hb', g] at h
          injection h with h
          rw [← h]
      unfold wrongOrder
      rw [ht]
      have n1 : decide (stInteger = stFloat) = false := by decide
      simp only [n1, Bool.false_and, Bool.or_false, List.any_cons, List.any_nil, hz 0 (by omega), hz 1 (by omega), hz 2 (by omega)]
      simp
    refine ⟨.filter (pixFilter al "Limiter" c.vi (limitOp F lo hi) process), ?_⟩
    unfold limitCreate
    rw [(workable_iff _).2 hw, if_neg (by decide), getPlanes_eq, e3, Res.bind_ok, e1, Res.bind_ok, e2, Res.bind_ok, ew]
    exact create_ok hv.info

/-- C73: a number that isn't finite is undefined behaviour: it is converted to an integer. -/
theorem C73_nan_refuted (al : Nat) {c : PClip} (hw : Workable c.vi.format) (hn : 1 ≤ c.vi.format.numPlanes)
    (ht : c.vi.format.sampleType = stInteger) {b : Nat} (h : F.value b = none) : limitCreate F al c.vi [] [b] [] = .ub := by
  obtain ⟨process, e3, _⟩ := planes_ok "Limiter" (planes := []) (by decide)
  have : rangeArgs F "Limiter" "min" c.vi.format [b] .lower false = .ub := by
    unfold rangeArgs
    rw [if_neg (by show ¬ (1 : Int) > _; omega)]
    have : rangeGiven F "Limiter" "min" c.vi.format b = .ub := by
      unfold rangeGiven
      rw [if_pos ht, F.half_none b h]
      rfl
    unfold rangeLoop
    rw [this]
    rfl
  unfold limitCreate
  rw [(workable_iff _).2 hw, if_neg (by decide), getPlanes_eq, e3, Res.bind_ok, this]
  rfl

/-! ## Examples -/

/-- Numbers for the examples: the pattern `b` stands for `b / 2 - 500`, large patterns for none. -/
def exFloats : Floats where
  value b := if b < 10000 then some ((b : Rat) / 2 - 500) else none
  addHalf b := if b < 10000 then some ((b : Rat) / 2 - 500 + 1 / 2) else none
  single b := b
  const q := ((q + 500) * 2).floor.toNat
  oneMinus _ b := 2002 - b
  negate b := 2000 - b
  limit _ l h v := min h (max l v)
  less _ v t := decide (v < t)
  store _ v := v
  half_close := by
    intro b q h
    by_cases c : b < 10000
    · rw [if_pos c] at h ⊢
      injection h with h
      refine ⟨_, rfl, ?_⟩
      rw [← h]
      have : ∀ x : Rat, rabs (x - x) = 0 := by intro x; rw [Rat.sub_self]; decide +kernel
      rw [this]
      unfold rabs
      split <;> grind
    · rw [if_neg c] at h; cases h
  half_none := by
    intro b h
    by_cases c : b < 10000
    · rw [if_pos c] at h; cases h
    · rw [if_neg c]

theorem gray10_work : Workable gray10 := (workable_iff _).1 rfl

/-- C72 and C73: 10 bit; the sample 1000 becomes 23, and 900 if it is limited to the numbers from 100.5 to 900. -/
example : ∃ C g, invertCreate exFloats 32 (clip1 gray10 4 2 (fun x y => if x = 1 ∧ y = 1 then 1000 else 7) Dict.empty).vi [] false = .ok C ∧
    C.frame [clip1 gray10 4 2 (fun x y => if x = 1 ∧ y = 1 then 1000 else 7) Dict.empty] 0 (fun _ _ => 0) = .ok g ∧
    (smp 32 g 0 1 1 : Int) = (1023 : Int) - min (smp 32 (mkFrame 32 gray10 4 2 (fun x y => if x = 1 ∧ y = 1 then 1000 else 7) Dict.empty) 0 1 1) 1023 := by
  obtain ⟨C, e, _, h⟩ := C72_invert exFloats (Or.inl rfl) (clip1_valid gray10_geo (fun x y => if x = 1 ∧ y = 1 then 1000 else 7) Dict.empty)
    (planes := []) ((okOrVariable_iff _).1 rfl) (by decide) false
  obtain ⟨g, e', _, h1, h2, h3, _, h5⟩ := h 0 _ (clip1_at _ _ _ _ _ _) gray10_work rfl (fun _ _ => 0)
  refine ⟨C, g, e, e', ?_⟩
  exact h5 0 1 1 (by decide) (by rw [w_eq h1 h2]; decide) (by rw [h_eq h1 h3]; decide)

example : ∃ lo hi C, IntFor exFloats [1201] 0 0 lo ∧ IntFor exFloats [2800] 1023 0 hi ∧
    limitCreate exFloats 32 (clip1 gray10 4 2 (fun x _ => x) Dict.empty).vi [] [1201] [2800] = .ok C ∧ lo ≤ hi := by
  obtain ⟨lo, hi, h, _, h2⟩ := C73_limiter exFloats (Or.inl rfl) (clip1_valid gray10_geo (fun x _ => x) Dict.empty) (planes := [])
    gray10_work rfl (by decide) (mn := [1201]) (mx := [2800])
    ⟨by decide, by intro b hb; rw [List.mem_singleton.1 hb]; exact ⟨_, rfl, by decide +kernel, by decide +kernel⟩⟩
    ⟨by decide, by intro b hb; rw [List.mem_singleton.1 hb]; exact ⟨_, rfl, by decide +kernel, by decide +kernel⟩⟩
  have hle : ∀ p, p < 3 → lo p ≤ hi p := by
    intro p hp
    obtain ⟨h1, h2⟩ := h p hp
    have el : ∀ a : Nat, element [a] p = some a := by
      intro a
      unfold element
      simp
    rcases h1 with ⟨h, _⟩ | ⟨b, q, h1, hq, hn⟩
    · cases h
    rcases h2 with ⟨h, _⟩ | ⟨b', q', h1', hq', hn'⟩
    · cases h
    rw [el] at h1 h1'
    injection h1 with h1
    injection h1' with h1'
    rw [← h1] at hq
    rw [← h1'] at hq'
    have e1 : exFloats.value 1201 = some (1201 / 2 - 500) := by decide +kernel
    have e2 : exFloats.value 2800 = some (2800 / 2 - 500) := by decide +kernel
    rw [e1] at hq
    rw [e2] at hq'
    injection hq with hq
    injection hq' with hq'
    have n1 := rabs_le.1 hn
    have n2 := rabs_le.1 hn'
    have : (lo p : Rat) ≤ hi p := by grind
    exact_mod_cast this
  obtain ⟨C, e, _⟩ := h2 hle
  exact ⟨lo 0, hi 0, C, (h 0 (by omega)).1, (h 0 (by omega)).2, e, hle 0 (by omega)⟩

/-- C73: 1024 isn't a sample of 10 bits. -/
example : ∃ m, limitCreate exFloats 32 (clip1 gray10 4 2 (fun x _ => x) Dict.empty).vi [] [3048] [] = .err m := by
  have e1 : exFloats.value 3048 = some 1024 := by decide +kernel
  refine C73_limiter_refused exFloats (clip1_valid gray10_geo (fun x _ => x) Dict.empty) (Or.inr (Or.inr (Or.inr ⟨rfl, ?_, 3048, 1024,
    by simp, e1, Or.inr (by decide +kernel)⟩)))
  intro b hb
  rw [List.mem_singleton.1 hb]
  exact ⟨1024, e1, by decide +kernel, by decide +kernel, Or.inr (Or.inr (by decide +kernel))⟩

/-- C73: -1 is accepted. -/
example : ∃ C, limitCreate exFloats 32 (clip1 gray10 4 2 (fun x _ => x) Dict.empty).vi [] [998] [] = .ok C :=
  (C73_negative_refuted exFloats (clip1_valid gray10_geo (fun x _ => x) Dict.empty) gray10_work rfl (by decide +kernel)).2

/-- C74: 10 bit with the default arguments. -/
example : ∃ C g, binarizeCreate exFloats 32 (clip1 gray10 4 2 (fun x _ => 500 + 5 * x) Dict.empty).vi [] [] [] [] false = .ok C ∧
    C.frame [clip1 gray10 4 2 (fun x _ => 500 + 5 * x) Dict.empty] 0 (fun _ _ => 0) = .ok g ∧
    (smp 32 g 0 2 1 : Int) = if smp 32 (mkFrame 32 gray10 4 2 (fun x _ => 500 + 5 * x) Dict.empty) 0 2 1 < 512 then 0 else 1023 := by
  obtain ⟨a, b, t, h, C, e, _, h'⟩ := C74_binarize exFloats (Or.inl rfl) (clip1_valid gray10_geo (fun x _ => 500 + 5 * x) Dict.empty)
    (planes := []) gray10_work rfl (by decide) (v0 := []) (v1 := []) (thr := []) ⟨by decide, by simp⟩ ⟨by decide, by simp⟩
    ⟨by decide, by simp⟩ false
  obtain ⟨h1, h2, h3⟩ := h 0 (by omega)
  have el : ∀ d v, IntFor exFloats [] d 0 v → v = d := by
    rintro d v (⟨_, h⟩ | ⟨b, q, h, _⟩)
    · exact h
    · cases h
  obtain ⟨g, e', _, g1, g2, g3, _, g5⟩ := h' 0 _ (clip1_at _ _ _ _ _ _) (fun _ _ => 0)
  refine ⟨C, g, e, e', ?_⟩
  have := g5 0 2 1 (by decide) (by rw [w_eq g1 g2]; decide) (by rw [h_eq g1 g3]; decide)
  dsimp only at this
  rw [if_pos (by decide), el _ _ h1, el _ _ h2, el _ _ h3] at this
  exact this

end VS.Pixel
