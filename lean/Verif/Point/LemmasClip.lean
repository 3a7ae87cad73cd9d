import Verif.Point.Lemmas

/-! # Facts about formats, clips and the argument `planes` -/

namespace VS.Point
open VS VS.Format VS.Map VS.Map.Spec VS.Pix VS.Pix.Spec VS.Point.Spec

/-! ## Formats -/

theorem workable_iff (f : VFmt) : is8to16orFloat f = true ↔ Workable f := by
  unfold is8to16orFloat Workable
  by_cases h : f.colorFamily = cfUndefined
  · rw [if_pos h]
    exact ⟨fun e => by simp at e, fun e => absurd h e.1⟩
  · rw [if_neg h]
    by_cases h2 : (f.sampleType = stInteger ∧ f.bitsPerSample > 16) ∨
        (f.sampleType = stFloat ∧ ¬ (f.bitsPerSample = 32 ∨ f.bitsPerSample = 16))
    · rw [if_pos h2]
      refine ⟨fun e => by simp at e, ?_⟩
      rintro ⟨_, a, b⟩
      rcases h2 with ⟨t, h2⟩ | ⟨t, h2⟩
      · have := a t; omega
      · have := b t; omega
    · rw [if_neg h2]
      refine ⟨fun _ => ⟨h, ?_, ?_⟩, fun _ => rfl⟩
      · intro t
        by_cases g : f.bitsPerSample ≤ 16
        · exact g
        · exact absurd (Or.inl ⟨t, by omega⟩) h2
      · intro t
        by_cases g : f.bitsPerSample = 16 ∨ f.bitsPerSample = 32
        · exact g
        · exact absurd (Or.inr ⟨t, by omega⟩) h2

theorem good_of {f : VFmt} (h : isValidVideoStruct f = true) (hk : f.colorFamily ≠ cfUndefined) : GoodVideo f :=
  (C20_struct_check f hk).1.1 h

theorem bytes_1 {b n : Int} (h : SmallestBytes b n) (hb : b = 8) : n = 1 := by
  have := h.2.2 0 (by subst hb; decide)
  have h2 := h.2.1
  change n ≤ 1 at this
  omega

theorem bytes_2 {b n : Int} (h : SmallestBytes b n) (h1 : 9 ≤ b) (h2 : b ≤ 16) : n = 2 := by
  have := h.2.2 1 (by change b ≤ 16; omega)
  have h2 := h.2.1
  change n ≤ 2 at this
  omega

theorem bytes_4 {b n : Int} (h : SmallestBytes b n) (h1 : 17 ≤ b) (h2 : b ≤ 32) : n = 4 := by
  have h3 := h.2.2 2 (by change b ≤ 32; omega)
  have h2 := h.2.1
  change n ≤ 4 at h3
  obtain ⟨k, hk⟩ := h.1
  match k, hk with
  | 0, hk => change n = 1 at hk; omega
  | 1, hk => change n = 2 at hk; omega
  | k + 2, hk =>
    have : (2 : Nat) ^ (k + 2) = 2 ^ k * 4 := by rw [Nat.pow_add]
    have := Nat.pow_pos (n := k) (show 0 < 2 by decide)
    omega

/-- What a kind of sample means. -/
def KindOk (f : VFmt) (k : Kind) : Prop :=
  match k with
  | .byte => f.sampleType = stInteger ∧ f.bitsPerSample = 8 ∧ bps f = 1
  | .word => f.sampleType = stInteger ∧ 9 ≤ f.bitsPerSample ∧ f.bitsPerSample ≤ 16 ∧ bps f = 2
  | .single => f.sampleType = stFloat ∧ f.bitsPerSample = 32 ∧ bps f = 4
  | .half => f.sampleType = stFloat ∧ f.bitsPerSample = 16 ∧ bps f = 2

theorem kind_ok {f : VFmt} (h : isValidVideoStruct f = true) (hw : Workable f) :
    ∃ k, kindOf f = some k ∧ k.bytes = bps f ∧ KindOk f k := by
  obtain ⟨⟨_, d, _⟩, sb, _⟩ := good_of h hw.1
  unfold bps
  have n1 : (stFloat : Int) ≠ stInteger := by decide
  rcases d with ⟨t, b1, b2⟩ | ⟨t, b⟩
  · have b3 := hw.2.1 t
    by_cases e : f.bitsPerSample = 8
    · have eb := bytes_1 sb e
      exact ⟨.byte, if_pos ⟨t, eb⟩, by rw [eb]; rfl, t, e, by unfold bps; rw [eb]; rfl⟩
    · have eb := bytes_2 sb (by omega) b3
      refine ⟨.word, ?_, by rw [eb]; rfl, t, by omega, b3, by unfold bps; rw [eb]; rfl⟩
      unfold kindOf
      rw [if_neg (by omega), if_pos ⟨t, eb⟩]
  · rcases b with e | e
    · have eb := bytes_2 sb (by omega) (by omega)
      refine ⟨.half, ?_, by rw [eb]; rfl, t, e, by unfold bps; rw [eb]; rfl⟩
      unfold kindOf
      rw [if_neg (by rw [t]; exact fun c => n1 c.1), if_neg (by rw [t]; exact fun c => n1 c.1), if_neg (by omega), if_pos ⟨t, eb⟩]
    · have eb := bytes_4 sb (by omega) (by omega)
      refine ⟨.single, ?_, by rw [eb]; rfl, t, e, by unfold bps; rw [eb]; rfl⟩
      unfold kindOf
      rw [if_neg (by rw [t]; exact fun c => n1 c.1), if_neg (by rw [t]; exact fun c => n1 c.1), if_pos ⟨t, eb⟩]

/-! ## Clips -/

theorem constant_iff (vi : VInfo) : isConstantVideoFormat vi = true ↔ Constant vi := by
  unfold isConstantVideoFormat Constant
  rw [decide_eq_true_iff]
  omega

theorem not_constant {vi : VInfo} (h : ¬ Constant vi) : isConstantVideoFormat vi = false := by
  rw [← constant_iff] at h
  exact Bool.not_eq_true _ ▸ h

theorem struct_of {al : Nat} {c : PClip} (h : ValidClip al c) : isValidVideoStruct c.vi.format = true :=
  ((info_iff c.vi).1 h.info).1

theorem fit_iff {al : Nat} {a b : PClip} (ha : ValidClip al a) (hb : ValidClip al b) (hc : Constant a.vi) :
    isSameVideoInfo a.vi b.vi = true ↔ Fit a.vi b.vi := by
  unfold isSameVideoInfo Fit
  rw [Bool.and_eq_true, decide_eq_true_iff]
  constructor
  · rintro ⟨⟨h1, h2⟩, h3⟩
    exact ⟨h2, h1, fmt_eq (struct_of ha) hc.2.2 (struct_of hb) h3⟩
  · rintro ⟨h1, h2, h3⟩
    refine ⟨⟨h2, h1⟩, ?_⟩
    rw [h3]
    unfold isSameVideoFormat
    simp

theorem fit_false {al : Nat} {a b : PClip} (ha : ValidClip al a) (hb : ValidClip al b) (hc : Constant a.vi)
    (h : ¬ Fit a.vi b.vi) : isSameVideoInfo a.vi b.vi = false := by
  rw [← fit_iff ha hb hc] at h
  exact Bool.not_eq_true _ ▸ h

/-- The frames of a clip with constant format and size. -/
theorem const_frame {al : Nat} {c : PClip} (hv : ValidClip al c) (hc : Constant c.vi) {f : Frm} (hf : f ∈ c.frames) :
    Valid al f ∧ f.fmt = c.vi.format ∧ (f.width : Int) = c.vi.width ∧ (f.height : Int) = c.vi.height := by
  obtain ⟨h1, h2⟩ := hv.size f hf (Or.inl (by have := hc.1; omega))
  exact ⟨hv.frames f hf, hv.fmt f hf hc.2.2, h1, h2⟩

/-- Frames of two clips that fit. -/
theorem fit_frame {al : Nat} {a b : PClip} (ha : ValidClip al a) (hb : ValidClip al b) (hc : Constant a.vi) (h : Fit a.vi b.vi)
    {f g : Frm} (hf : f ∈ a.frames) (hg : g ∈ b.frames) : g.fmt = f.fmt ∧ g.width = f.width ∧ g.height = f.height := by
  obtain ⟨_, a1, a2, a3⟩ := const_frame ha hc hf
  obtain ⟨h1, h2, h3⟩ := h
  obtain ⟨_, b1, b2, b3⟩ := const_frame hb (by unfold Constant at *; rw [← h1, ← h2, ← h3]; exact hc) hg
  exact ⟨by rw [a1, b1, h3], by omega, by omega⟩

theorem w_eq {f g : Frm} (h1 : g.fmt = f.fmt) (h2 : g.width = f.width) (p : Nat) : g.w p = f.w p := by
  unfold Frm.w; rw [h1, h2]

theorem h_eq {f g : Frm} (h1 : g.fmt = f.fmt) (h2 : g.height = f.height) (p : Nat) : g.h p = f.h p := by
  unfold Frm.h; rw [h1, h2]

theorem stride_eq {al : Nat} {f g : Frm} (h1 : g.fmt = f.fmt) (h2 : g.width = f.width) (p : Nat) : g.stride al p = f.stride al p := by
  unfold Frm.stride; rw [w_eq h1 h2, h1]

/-- From what a filter does in its last step to the frame. -/
theorem gives_of {al : Nat} {f : PFilter} {clips : List PClip} {n : Nat} {fmt : VFmt} {w h : Nat} {props : Dict}
    {S : Nat → Nat → Nat → Int} (h1 : f.vi.format = fmt) (h2 : f.vi.width = w) (h3 : f.vi.height = h)
    (hg : ∀ junk, ∃ g, f.ready n (getFrameFilter clips (f.reqs n)) junk = .ok g ∧ Valid al g ∧ g.fmt = fmt ∧ g.width = w ∧
      g.height = h ∧ g.props = props ∧
      ∀ p x y : Nat, (p : Int) < fmt.numPlanes → x < g.w p → y < g.h p → (smp al g p x y : Int) = S p x y) :
    Gives al (.filter f) clips n fmt w h props S := by
  intro junk
  obtain ⟨g, e, v, e1, e2, e3, e4, e5⟩ := hg junk
  refine ⟨g, frame_ok e (fun _ => by rw [e1, h1]) (fun _ => ?_), v, e1, e2, e3, e4, e5⟩
  rw [e2, e3, h2, h3]
  exact ⟨rfl, rfl⟩

/-! ## New frames without sources -/

/-- A new frame whose samples are computed. -/
theorem makeNew_ok {al : Nat} {fmt : VFmt} {w h : Nat} (geo : Geo fmt w h) (props : Dict) (junk : Junk)
    (f : Frm → Nat → Buf → Res Buf) (G : Nat → Nat → Nat → Nat)
    (hf : ∀ dst : Frm, dst.fmt = fmt → dst.width = w → dst.height = h → ∀ (p : Nat) b, (p : Int) < fmt.numPlanes →
      b.size = dst.stride al p * dst.h p → ∃ b', f dst p b = .ok b' ∧ b'.size = b.size ∧
        ∀ x y k, x < dst.w p → y < dst.h p → k < bps fmt → b'.byte (y * dst.stride al p + x * bps fmt + k) = leByte (G p x y) k) :
    ∃ g, (newVideoFrame al fmt w h props junk >>= fun dst => dst.build (f dst)) = .ok g ∧ Valid al g ∧ g.fmt = fmt ∧
      g.width = w ∧ g.height = h ∧ g.props = props ∧
      ∀ (p : Nat) x y, (p : Int) < fmt.numPlanes → x < g.w p → y < g.h p → smp al g p x y = G p x y % 256 ^ bps fmt := by
  obtain ⟨g, e, v, e1, e2, e3, e4, e5⟩ := make_ok (al := al) geo props junk f
    (fun p => ⟨w / 2 ^ ssw fmt p, h / 2 ^ ssh fmt p, fun x y => (List.range (bps fmt)).map (leByte (G p x y))⟩)
    (fun _ _ => rfl) (fun _ _ => rfl) (by
      intro dst d1 d2 d3 p b hp hb
      obtain ⟨b', f1, f2, f3⟩ := hf dst d1 d2 d3 p b hp hb
      exact ⟨b', f1, f2, fun x y hx hy => range_congr (fun k hk => f3 x y k hx hy hk)⟩)
  refine ⟨g, e, v, e1, e2, e3, e4, ?_⟩
  intro p x y hp hx hy
  unfold smp
  rw [(e5 p hp).2.2 x y hx hy]
  show number ((List.range (bps fmt)).map (leByte (G p x y))) = _
  rw [number_map]
  exact leVal_bytes _ _

/-! ## New frames with planes of the source -/

/-- A frame where some planes are computed, the others are those of the source. -/
theorem flags_ok {al : Nat} {s1 : Frm} (v1 : Valid al s1) {fmt : VFmt} (e1 : s1.fmt = fmt) (proc : Nat → Bool)
    (body : Nat → Buf → Res Buf) (G : Nat → Nat → Nat → Nat) (props : Dict) (junk : Junk)
    (hb : ∀ (p : Nat) b, (p : Int) < fmt.numPlanes → proc p = true → b.size = s1.stride al p * s1.h p →
      ∃ b', body p b = .ok b' ∧ b'.size = b.size ∧ ∀ x y k, x < s1.w p → y < s1.h p → k < bps fmt →
        b'.byte (y * s1.stride al p + x * bps fmt + k) = leByte (G p x y) k) :
    ∃ g, (newVideoFrameOpt al fmt s1.width s1.height ([0, 1, 2].map fun p : Nat => if proc p then none else some (s1, (p : Int)))
        props junk >>= fun dst => dst.build fun p b => if proc p then body p b else .ok b) = .ok g ∧ Valid al g ∧ g.fmt = fmt ∧
      g.width = s1.width ∧ g.height = s1.height ∧ g.props = props ∧
      ∀ p x y : Nat, (p : Int) < fmt.numPlanes → x < g.w p → y < g.h p →
        smp al g p x y = if proc p then G p x y % 256 ^ bps fmt else smp al s1 p x y := by
  subst e1
  have hnp := (fmtOk v1.fmt v1.known).planes
  let src : Nat → Option (Frm × Int) := fun p => if proc p then none else some (s1, (p : Int))
  have hsrc : ∀ p : Nat, (p : Int) < s1.fmt.numPlanes → ([0, 1, 2].map src)[p]? = some (src p) := by
    intro p hp
    match p, (show p < 3 by omega) with
    | 0, _ => rfl
    | 1, _ => rfl
    | 2, _ => rfl
  obtain ⟨g, e, v, g1, g2, g3, g4, g5, g6⟩ := makeOpt_ok (al := al) v1.geo props junk ([0, 1, 2].map src)
    (fun p b => if proc p then body p b else .ok b) G
    (by rw [List.length_map]; show _ ≤ (3 : Int); omega)
    (by
      intro j s p hj hs
      rw [hsrc j hj, Option.some.injEq] at hs
      dsimp only [src] at hs
      cases c : proc j with
      | true =>
        rw [c] at hs
        exact absurd hs (by simp)
      | false =>
        rw [c] at hs
        simp only [Bool.false_eq_true, if_false, Option.some.injEq, Prod.mk.injEq] at hs
        obtain ⟨rfl, rfl⟩ := hs
        exact ⟨takes_self v1 hj rfl rfl rfl, fun b => rfl⟩)
    (by
      intro p b hp hs hz
      rw [hsrc p hp, Option.some.injEq] at hs
      dsimp only [src] at hs
      cases c : proc p with
      | false =>
        rw [c] at hs
        exact absurd hs (by simp)
      | true => exact hb p b hp c hz)
  refine ⟨g, e, v, g1, g2, g3, g4, ?_⟩
  intro p x y hp hx hy
  cases c : proc p with
  | true => exact g5 p hp (by rw [hsrc p hp]; dsimp only [src]; rw [c]; rfl) x y hx hy
  | false => exact same_smp (g6 p s1 p hp (by rw [hsrc p hp]; dsimp only [src]; rw [c]; rfl)) hx hy

/-- The same for a frame of another format with as many planes of the same size; planes of the source are only taken if the
samples have the same number of bytes. -/
theorem flagsTo_ok {al : Nat} {s1 : Frm} (v1 : Valid al s1) {fmt : VFmt} (geo : Geo fmt s1.width s1.height)
    (en : fmt.numPlanes = s1.fmt.numPlanes) (ew : fmt.subSamplingW = s1.fmt.subSamplingW)
    (eh : fmt.subSamplingH = s1.fmt.subSamplingH) (proc : Nat → Bool)
    (hbp : ∀ p : Nat, (p : Int) < fmt.numPlanes → proc p = false → bps s1.fmt = bps fmt)
    (body : Nat → Buf → Res Buf) (G : Nat → Nat → Nat → Nat) (props : Dict) (junk : Junk)
    (hb : ∀ (p : Nat) b, (p : Int) < fmt.numPlanes → proc p = true →
      b.size = Frame.strideOf al (s1.w p) (bps fmt) * s1.h p →
      ∃ b', body p b = .ok b' ∧ b'.size = b.size ∧ ∀ x y k, x < s1.w p → y < s1.h p → k < bps fmt →
        b'.byte (y * Frame.strideOf al (s1.w p) (bps fmt) + x * bps fmt + k) = leByte (G p x y) k) :
    ∃ g, (newVideoFrameOpt al fmt s1.width s1.height ([0, 1, 2].map fun p : Nat => if proc p then none else some (s1, (p : Int)))
        props junk >>= fun dst => dst.build fun p b => if proc p then body p b else .ok b) = .ok g ∧ Valid al g ∧ g.fmt = fmt ∧
      g.width = s1.width ∧ g.height = s1.height ∧ g.props = props ∧
      ∀ p x y : Nat, (p : Int) < fmt.numPlanes → x < g.w p → y < g.h p →
        smp al g p x y = if proc p then G p x y % 256 ^ bps fmt else smp al s1 p x y := by
  have hnp := (fmtOk v1.fmt v1.known).planes
  have esw : ∀ p, ssw fmt p = ssw s1.fmt p := fun p => by unfold ssw; rw [ew]
  have esh : ∀ p, ssh fmt p = ssh s1.fmt p := fun p => by unfold ssh; rw [eh]
  let src : Nat → Option (Frm × Int) := fun p => if proc p then none else some (s1, (p : Int))
  have hsrc : ∀ p : Nat, (p : Int) < fmt.numPlanes → ([0, 1, 2].map src)[p]? = some (src p) := by
    intro p hp
    match p, (show p < 3 by omega) with
    | 0, _ => rfl
    | 1, _ => rfl
    | 2, _ => rfl
  obtain ⟨g, e, v, g1, g2, g3, g4, g5, g6⟩ := makeOpt_ok (al := al) geo props junk ([0, 1, 2].map src)
    (fun p b => if proc p then body p b else .ok b) G
    (by rw [List.length_map]; show _ ≤ (3 : Int); omega)
    (by
      intro j s p hj hs
      rw [hsrc j hj, Option.some.injEq] at hs
      dsimp only [src] at hs
      cases c : proc j with
      | true =>
        rw [c] at hs
        exact absurd hs (by simp)
      | false =>
        rw [c] at hs
        simp only [Bool.false_eq_true, if_false, Option.some.injEq, Prod.mk.injEq] at hs
        obtain ⟨rfl, rfl⟩ := hs
        refine ⟨⟨v1, by omega, by omega, hbp j hj c, ?_, ?_⟩, fun b => rfl⟩
        · rw [esw]; rfl
        · rw [esh]; rfl)
    (by
      intro p b hp hs hz
      rw [hsrc p hp, Option.some.injEq] at hs
      dsimp only [src] at hs
      cases c : proc p with
      | false =>
        rw [c] at hs
        exact absurd hs (by simp)
      | true =>
        rw [esw, esh] at hz ⊢
        exact hb p b hp c hz)
  refine ⟨g, e, v, g1, g2, g3, g4, ?_⟩
  intro p x y hp hx hy
  cases c : proc p with
  | true => exact g5 p hp (by rw [hsrc p hp]; dsimp only [src]; rw [c]; rfl) x y hx hy
  | false => exact same_smp (g6 p s1 p hp (by rw [hsrc p hp]; dsimp only [src]; rw [c]; rfl)) hx hy

/-! ## The argument `planes` -/

theorem processLoop_ok (name : String) (planes : List Int) (l : List Bool) (hl : l.length = 3) (hp : PlanesOk planes)
    (hf : ∀ p ∈ planes, l.getD p.toNat false = false) :
    ∃ r, processLoop name planes l = .ok r ∧ r.length = 3 ∧
      ∀ p : Nat, p < 3 → (r.getD p false = true ↔ l.getD p false = true ∨ (p : Int) ∈ planes) := by
  induction planes generalizing l with
  | nil => exact ⟨l, rfl, hl, fun p _ => by simp⟩
  | cons o t ih =>
    obtain ⟨h1, h2⟩ := hp
    rw [List.nodup_cons] at h2
    have ho := h1 o (List.mem_cons_self ..)
    have key : ∀ q : Nat, (l.set o.toNat true).getD q false = if q = o.toNat then true else l.getD q false := by
      intro q
      rw [List.getD_eq_getElem?_getD, List.getElem?_set]
      split
      · rename_i e
        rw [if_pos (by omega), if_pos e.symm]
        rfl
      · rename_i e
        rw [if_neg (fun c => e c.symm), List.getD_eq_getElem?_getD]
    obtain ⟨r, e, hr, hr2⟩ := ih (l.set o.toNat true) (by rw [List.length_set]; exact hl)
      ⟨fun p hp => h1 p (List.mem_cons_of_mem _ hp), h2.2⟩ (by
        intro p hp
        have hp0 := h1 p (List.mem_cons_of_mem _ hp)
        rw [key, if_neg, hf p (List.mem_cons_of_mem _ hp)]
        intro c
        have : p = o := by omega
        subst this
        exact h2.1 hp)
    refine ⟨r, ?_, hr, ?_⟩
    · unfold processLoop
      rw [if_neg (by omega), hf o (List.mem_cons_self ..)]
      exact e
    · intro p hp
      rw [hr2 p hp, key, List.mem_cons]
      by_cases c : p = o.toNat
      · rw [if_pos c]
        have : (p : Int) = o := by omega
        simp [this]
      · rw [if_neg c]
        have : (p : Int) ≠ o := by omega
        simp [this]

/-- A valid list of planes gives the flags. -/
theorem planes_ok (name : String) {planes : List Int} (hp : PlanesOk planes) :
    ∃ r, getProcessPlanesArg name planes = .ok r ∧ ∀ p : Nat, p < 3 → r.getD p false = decide (Wanted planes p) := by
  cases planes with
  | nil =>
    refine ⟨[true, true, true], rfl, ?_⟩
    intro p hp
    have : Wanted [] p := Or.inl rfl
    rw [decide_eq_true this]
    match p, hp with
    | 0, _ => rfl
    | 1, _ => rfl
    | 2, _ => rfl
  | cons a t =>
    have hrep : ∀ p : Nat, (List.replicate 3 false).getD p false = false := by
      intro p
      rw [List.getD_eq_getElem?_getD, List.getElem?_replicate]
      split <;> rfl
    obtain ⟨r, e, _, h⟩ := processLoop_ok name (a :: t) (List.replicate 3 false) rfl hp (fun p _ => hrep _)
    refine ⟨r, e, ?_⟩
    intro p hp
    have := h p hp
    rw [hrep] at this
    rw [Bool.eq_iff_iff, this, decide_eq_true_iff]
    unfold Wanted
    simp

theorem processLoop_bad (name : String) (planes : List Int) (l : List Bool) (hl : l.length = 3)
    (hf : ¬ (PlanesOk planes ∧ ∀ p ∈ planes, l.getD p.toNat false = false)) : ∃ m, processLoop name planes l = .err m := by
  induction planes generalizing l with
  | nil => exact absurd ⟨⟨by simp, List.nodup_nil⟩, by simp⟩ hf
  | cons o t ih =>
    unfold processLoop
    by_cases h1 : o < 0 ∨ o ≥ 3
    · exact ⟨_, if_pos h1⟩
    · rw [if_neg h1]
      cases h2 : l.getD o.toNat false with
      | true => exact ⟨_, if_pos rfl⟩
      | false =>
        simp only [Bool.false_eq_true, if_false]
        refine ih _ (by rw [List.length_set]; exact hl) ?_
        rintro ⟨⟨p1, p2⟩, p3⟩
        apply hf
        have key : ∀ q : Nat, (l.set o.toNat true).getD q false = if q = o.toNat then true else l.getD q false := by
          intro q
          rw [List.getD_eq_getElem?_getD, List.getElem?_set]
          split
          · rename_i e
            rw [if_pos (by omega), if_pos e.symm]
            rfl
          · rename_i e
            rw [if_neg (fun c => e c.symm), List.getD_eq_getElem?_getD]
        have hno : o ∉ t := by
          intro hm
          have := p3 o hm
          rw [key, if_pos rfl] at this
          exact absurd this (by simp)
        refine ⟨⟨?_, List.nodup_cons.2 ⟨hno, p2⟩⟩, ?_⟩
        · intro p hp
          rcases List.mem_cons.1 hp with rfl | hp
          · omega
          · exact p1 p hp
        · intro p hp
          rcases List.mem_cons.1 hp with rfl | hp
          · exact h2
          · have := p3 p hp
            rw [key] at this
            split at this
            · exact absurd this (by simp)
            · exact this

/-- Other lists are refused. -/
theorem planes_bad (name : String) {planes : List Int} (hp : ¬ PlanesOk planes) : ∃ m, getProcessPlanesArg name planes = .err m :=
  processLoop_bad name planes _ rfl (fun h => hp h.1)

end VS.Point
