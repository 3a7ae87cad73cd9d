import Verif.Merge.PropsMerge

/-! # C67: PreMultiply -/

namespace VS.Merge
open VS VS.Format VS.Map VS.Map.Spec VS.Pix VS.Pix.Spec VS.Point VS.Point.Spec VS.Merge.Spec

/-! ## Ranges and chroma locations -/

theorem loc_eq (d : Dict) : resolveChromaLocation d = locOf d := by
  unfold resolveChromaLocation locOf
  cases h : propInt d "_ChromaLocation" with
  | none => rfl
  | some r =>
    dsimp only
    by_cases c : r < 0 ∨ r > 5
    · rw [if_pos c]
      split <;> first | rfl | (rename_i e; simp only [Option.some.injEq] at e; omega)
    · rw [if_neg c]
      have : r = 0 ∨ r = 1 ∨ r = 2 ∨ r = 3 ∨ r = 4 ∨ r = 5 := by omega
      rcases this with rfl | rfl | rfl | rfl | rfl | rfl <;> rfl

theorem loc_lt (d : Dict) : locOf d < 6 := by
  unfold locOf
  split <;> decide

theorem black_eq {f : VFmt} (hf : GoodVideo f) (d : Dict) : (getLimitedRangeOffset d f : Int) = blackOf d f := by
  unfold getLimitedRangeOffset blackOf
  have hp : ((16 * 2 ^ (f.bitsPerSample - 8).toNat : Nat) : Int) = 16 * 2 ^ (f.bitsPerSample - 8).toNat := by push_cast; rfl
  cases h : propInt d "_Range" with
  | some r =>
    dsimp only
    rw [Option.getD_some]
    by_cases c : r = 0
    · rw [decide_eq_true c, if_pos c, ← hp]; rfl
    · rw [decide_eq_false c, if_neg c]; rfl
  | none =>
    dsimp only
    rw [Option.getD_none]
    by_cases c : f.colorFamily = cfRGB
    · rw [if_pos c, decide_eq_false (by rw [c]; decide)]; rfl
    · rw [if_neg c, decide_eq_true, if_pos rfl, ← hp]
      · rfl
      · rcases hf.1.1 with h | h | h
        · exact Or.inl h
        · exact absurd h c
        · exact Or.inr h

theorem zero_eq {f : VFmt} (hf : GoodVideo f) (d : Dict) (p : Nat) :
    (planeOffset f (getLimitedRangeOffset d f) p : Int) = zeroOf d f p := by
  unfold planeOffset zeroOf middleOf
  split
  · push_cast; rfl
  · exact black_eq hf d

theorem pow_split {b : Int} (h : 8 ≤ b) : 16 * 2 ^ (b - 8).toNat < 2 ^ b.toNat ∧ 2 ^ (b - 1).toNat < 2 ^ b.toNat := by
  obtain ⟨k, rfl⟩ : ∃ k : Nat, b = k + 8 := ⟨(b - 8).toNat, by omega⟩
  have e1 : ((k : Int) + 8 - 8).toNat = k := by omega
  have e2 : ((k : Int) + 8).toNat = k + 8 := by omega
  have e3 : ((k : Int) + 8 - 1).toNat = k + 7 := by omega
  rw [e1, e2, e3, Nat.pow_add, Nat.pow_add]
  have := Nat.pow_pos (n := k) (show 0 < 2 by decide)
  omega

theorem offset_lt {f : VFmt} (hb : 8 ≤ f.bitsPerSample) (d : Dict) (p : Nat) :
    planeOffset f (getLimitedRangeOffset d f) p < 2 ^ f.bitsPerSample.toNat := by
  obtain ⟨h1, h2⟩ := pow_split hb
  have := Nat.pow_pos (n := f.bitsPerSample.toNat) (show 0 < 2 by decide)
  unfold planeOffset getLimitedRangeOffset
  dsimp only
  split
  · exact h2
  · have key : ∀ b : Bool, (if b = true then 16 * 2 ^ (f.bitsPerSample - 8).toNat else 0) < 2 ^ f.bitsPerSample.toNat := by
      intro b
      cases b
      · exact this
      · exact h1
    exact key _

/-! ## Sizes -/

theorem w_first {f : Frm} : f.w 0 = f.width := by
  show f.width / 2 ^ ssw f.fmt 0 = _
  exact Nat.div_one _

theorem h_first {f : Frm} : f.h 0 = f.height := by
  show f.height / 2 ^ ssh f.fmt 0 = _
  exact Nat.div_one _

theorem w_flat {f : Frm} (h : f.fmt.subSamplingW = 0) (p : Nat) : f.w p = f.width := by
  unfold Frm.w ssw
  rw [h]
  split <;> exact Nat.div_one _

theorem h_flat {f : Frm} (h : f.fmt.subSamplingH = 0) (p : Nat) : f.h p = f.height := by
  unfold Frm.h ssh
  rw [h]
  split <;> exact Nat.div_one _

theorem small_size {al : Nat} {vi : VInfo} {c : PClip} (h : Small al vi c) {f s : Frm} (hs : s ∈ c.frames)
    (h1 : f.fmt = vi.format) (h2 : (f.width : Int) = vi.width) (h3 : (f.height : Int) = vi.height) {p : Nat} (hp : 0 < p) :
    s.w 0 = f.w p ∧ s.h 0 = f.h p := by
  obtain ⟨_, _, e1, e2⟩ := const_frame h.valid h.const hs
  rw [w_first, h_first]
  unfold Frm.w Frm.h ssw ssh
  rw [if_neg (by omega), if_neg (by omega), h1]
  have w := h.wide
  have hi := h.high
  rw [← e1, ← h2] at w
  rw [← e2, ← h3] at hi
  have w' : s.width * 2 ^ vi.format.subSamplingW.toNat = f.width := by
    have : ((s.width * 2 ^ vi.format.subSamplingW.toNat : Nat) : Int) = f.width := by push_cast; exact w
    omega
  have hi' : s.height * 2 ^ vi.format.subSamplingH.toNat = f.height := by
    have : ((s.height * 2 ^ vi.format.subSamplingH.toNat : Nat) : Int) = f.height := by push_cast; exact hi
    omega
  rw [← w', ← hi', Nat.mul_div_cancel _ (Nat.pow_pos (by decide)), Nat.mul_div_cancel _ (Nat.pow_pos (by decide))]
  exact ⟨rfl, rfl⟩

theorem subsampled_iff {f : VFmt} (hf : GoodVideo f) : subsampled f = true ↔ Subsampled f := by
  unfold subsampled Subsampled
  rw [decide_eq_true_iff]
  constructor
  · rintro ⟨_, h⟩; omega
  · intro h
    refine ⟨?_, by omega⟩
    rw [hf.2.2, if_neg]
    · decide
    · intro c
      have := hf.1.2.2.2.2 (by rw [c]; decide)
      omega

/-- The frame of the other planes' alpha. -/
theorem premul_small {al : Nat} (F : Floats) {c alpha : PClip} (hc : ValidClip al c)
    (ha : ValidClip al alpha) (hcc : Constant c.vi) (hok : AlphaOk c.vi alpha.vi) {small : List PClip}
    (hsm : Subsampled c.vi.format → Smaller al c.vi small) {n : Nat} {f fa fs : Frm} (hf : at? c n = some f)
    (hfa : at? alpha n = some fa)
    (hfs : if Subsampled c.vi.format then ∃ s, small[locOf f.props]? = some s ∧ at? s n = some fs else fs = fa) :
    Valid al fs ∧ bps fs.fmt = bps f.fmt ∧ fs.fmt.bitsPerSample = c.vi.format.bitsPerSample ∧
      (∀ p : Nat, (p : Int) < c.vi.format.numPlanes → 0 < p → fs.w 0 = f.w p ∧ fs.h 0 = f.h p) ∧
      ∃ i, (2 ≤ i ∨ i = 1) ∧ (if subsampled c.vi.format then 2 + resolveChromaLocation f.props else 1) = i ∧
        getFrameFilter (c :: alpha :: small) ((premulFilter F al c.vi).reqs n) i n = .ok fs := by
  obtain ⟨k1, k2, k3, k4, k5, k6⟩ := hok
  have gv := good_of (struct_of hc) hcc.2.2
  obtain ⟨vf, f1, f2, f3⟩ := const_frame hc hcc (at_mem hf)
  obtain ⟨va, a1, a2, a3⟩ := const_frame ha k1 (at_mem hfa)
  by_cases hss : Subsampled c.vi.format
  · rw [if_pos hss] at hfs
    obtain ⟨s, es, hfs⟩ := hfs
    obtain ⟨s', es', hs⟩ := hsm hss _ (loc_lt f.props)
    rw [es, Option.some.injEq] at es'
    subst es'
    obtain ⟨v, v1, v2, v3⟩ := const_frame hs.valid hs.const (at_mem hfs)
    have eb : fs.fmt.bitsPerSample = c.vi.format.bitsPerSample := by rw [v1, hs.bits]
    refine ⟨v, bytes_eq v.fmt v.known vf.fmt vf.known (by rw [eb, f1]), eb,
      fun p _ hp0 => small_size hs (at_mem hfs) f1 f2 f3 hp0, 2 + locOf f.props, by omega, ?_, ?_⟩
    · rw [(subsampled_iff gv).2 hss, loc_eq]; rfl
    · refine get_ok (i := 2 + locOf f.props) (c := s) (by rw [Nat.add_comm]; exact es) hs.valid ?_ hfs
      show _ ∈ (if subsampled c.vi.format then _ else _)
      rw [(subsampled_iff gv).2 hss]
      simp only [if_true]
      refine List.mem_cons_of_mem _ (List.mem_cons_of_mem _ ?_)
      exact List.mem_map.2 ⟨locOf f.props, List.mem_range.2 (loc_lt _), rfl⟩
  · rw [if_neg hss] at hfs
    subst hfs
    have eb : fs.fmt.bitsPerSample = c.vi.format.bitsPerSample := by rw [a1, k6]
    have sf : subsampled c.vi.format = false := by
      rw [← subsampled_iff gv] at hss
      exact Bool.not_eq_true _ ▸ hss
    have z := gv.1.2.2.1
    have z2 := gv.1.2.2.2.1
    have z1 : f.fmt.subSamplingW = 0 := by unfold Subsampled at hss; rw [f1]; omega
    have z3 : f.fmt.subSamplingH = 0 := by unfold Subsampled at hss; rw [f1]; omega
    refine ⟨va, bytes_eq va.fmt va.known vf.fmt vf.known (by rw [eb, f1]), eb, ?_, 1, by omega, by rw [sf]; rfl, ?_⟩
    · intro p _ _
      rw [w_first, h_first, w_flat z1, h_flat z3]
      omega
    · refine get_ok (i := 1) (c := alpha) rfl ha ?_ hfa
      show _ ∈ (if subsampled c.vi.format then _ else _)
      rw [sf]
      simp

theorem premul_gives {al : Nat} (hal : AlignOk al) (F : Floats) {c alpha : PClip} (hc : ValidClip al c)
    (ha : ValidClip al alpha) (hw : Workable c.vi.format) (hcc : Constant c.vi)
    (hok : AlphaOk c.vi alpha.vi) {small : List PClip} (hsm : Subsampled c.vi.format → Smaller al c.vi small)
    {n : Nat} {f fa fs : Frm} (hf : at? c n = some f) (hfa : at? alpha n = some fa)
    (hfs : if Subsampled c.vi.format then ∃ s, small[locOf f.props]? = some s ∧ at? s n = some fs else fs = fa)
    {S : Nat → Nat → Nat → Int} (hS : ∀ p x y : Nat, (p : Int) < c.vi.format.numPlanes → x < f.w p → y < f.h p →
      (premulOut F c.vi.format (planeOffset c.vi.format (getLimitedRangeOffset f.props c.vi.format) p) (smp al f p x y)
        (smp al (maskFrame fa fs p) 0 x y) : Int) = S p x y) :
    Gives al (.filter (premulFilter F al c.vi)) (c :: alpha :: small) n c.vi.format f.width f.height f.props S := by
  obtain ⟨vs, sb, sbits, ssz, i, _, hi, hget⟩ := premul_small F hc ha hcc hok hsm hf hfa hfs
  obtain ⟨k1, k2, k3, k4, k5, k6⟩ := hok
  obtain ⟨vf, f1, f2, f3⟩ := const_frame hc hcc (at_mem hf)
  obtain ⟨va, a1, a2, a3⟩ := const_frame ha k1 (at_mem hfa)
  have ab : fa.fmt.bitsPerSample = c.vi.format.bitsPerSample := by rw [a1, k6]
  refine gives_of rfl f2.symm f3.symm ?_
  intro junk
  obtain ⟨g, e, v, g1, g2, g3, g4, g5⟩ := premulFrame_ok (F := F) (align_pos hal) vf va vs f1 f2 f3 hw (by
    intro p hp
    by_cases c0 : p > 0
    · rw [if_pos c0]
      exact ⟨sb, ssz p hp c0⟩
    · rw [if_neg c0, w_first, h_first]
      have : p = 0 := by omega
      subst this
      rw [w_first, h_first]
      exact ⟨bytes_eq va.fmt va.known vf.fmt vf.known (by rw [ab, f1]), by omega, by omega⟩) junk
  refine ⟨g, ?_, v, g1, g2, g3, g4, ?_⟩
  · show (getFrameFilter (c :: alpha :: small) ((premulFilter F al c.vi).reqs n) 0 n >>= fun s1 =>
      getFrameFilter (c :: alpha :: small) ((premulFilter F al c.vi).reqs n) 1 n >>= fun s2 =>
      getFrameFilter (c :: alpha :: small) ((premulFilter F al c.vi).reqs n)
        (if subsampled c.vi.format then 2 + resolveChromaLocation s1.props else 1) n >>= fun s23 =>
      premulFrame F al c.vi s1 s2 s23 junk) = _
    have m0 : ∀ j, j < 2 → (j, n) ∈ (premulFilter F al c.vi).reqs n := by
      intro j hj
      show _ ∈ (if subsampled c.vi.format then _ else _)
      match j, hj with
      | 0, _ => split <;> simp
      | 1, _ => split <;> simp
    rw [get_ok (i := 0) rfl hc (m0 0 (by decide)) hf, Res.bind_ok, get_ok (i := 1) rfl ha (m0 1 (by decide)) hfa, Res.bind_ok,
      hi, hget, Res.bind_ok, e]
  · intro p x y hp hx hy
    rw [g5 p x y hp hx hy]
    refine hS p x y hp ?_ ?_
    · rw [← w_eq (show g.fmt = f.fmt by rw [g1, f1]) g2]; exact hx
    · rw [← h_eq (show g.fmt = f.fmt by rw [g1, f1]) g3]; exact hy

theorem premulCreate_ok {al : Nat} (F : Floats) {c alpha : PClip} (hc : ValidClip al c) (hw : Workable c.vi.format)
    (hcc : Constant c.vi) (hok : AlphaOk c.vi alpha.vi) :
    premulCreate F al c.vi alpha.vi = .ok (.filter (premulFilter F al c.vi)) := by
  obtain ⟨k1, k2, k3, k4, k5, k6⟩ := hok
  unfold premulCreate
  rw [(workable_iff _).2 hw, (constant_iff _).2 hcc, (constant_iff _).2 k1, if_neg (by decide), if_neg (by omega),
    decide_eq_false (by omega)]
  exact create_ok hc.info

/-- C67: PreMultiply multiplies the distance from black, or from the middle in chroma planes, with alpha; the product is
rounded to the nearest integer. Chroma planes are multiplied with the smaller version of alpha for their chroma location. -/
theorem C67_premultiply {al : Nat} (hal : AlignOk al) (F : Floats) {c alpha : PClip} (hc : ValidClip al c)
    (ha : ValidClip al alpha) (hw : Workable c.vi.format) (ht : c.vi.format.sampleType = stInteger) (hcc : Constant c.vi)
    (hok : AlphaOk c.vi alpha.vi) {small : List PClip} (hsm : Subsampled c.vi.format → Smaller al c.vi small) :
    ∃ C, premulCreate F al c.vi alpha.vi = .ok C ∧ outInfo C (c :: alpha :: small) = some c.vi ∧
      ∀ n f fa fs, at? c n = some f → at? alpha n = some fa →
        (if Subsampled c.vi.format then ∃ s, small[locOf f.props]? = some s ∧ at? s n = some fs else fs = fa) →
        InRange al f → InRange al fa → InRange al fs →
        Gives al C (c :: alpha :: small) n c.vi.format f.width f.height f.props fun p x y =>
          zeroOf f.props c.vi.format p +
            scaled (maxOf c.vi.format) (zeroOf f.props c.vi.format p) (smp al (maskFrame fa fs p) 0 x y) (smp al f p x y) := by
  have gv := good_of (struct_of hc) hcc.2.2
  refine ⟨_, premulCreate_ok F hc hw hcc hok, rfl, ?_⟩
  intro n f fa fs hf hfa hfs rf ra rs
  refine premul_gives hal F hc ha hw hcc hok hsm hf hfa hfs ?_
  intro p x y hp hxf hyf
  obtain ⟨vs, sb, sbits, ssz, i, _, hi, hget⟩ := premul_small F hc ha hcc hok hsm hf hfa hfs
  obtain ⟨k1, k2, k3, k4, k5, k6⟩ := hok
  obtain ⟨vf, f1, f2, f3⟩ := const_frame hc hcc (at_mem hf)
  obtain ⟨va, a1, a2, a3⟩ := const_frame ha k1 (at_mem hfa)
  have ab : fa.fmt.bitsPerSample = c.vi.format.bitsPerSample := by rw [a1, k6]
  have l1 := rf p x y (f1 ▸ hp) hxf hyf
  rw [f1] at l1
  have l2 : smp al (maskFrame fa fs p) 0 x y < 2 ^ c.vi.format.bitsPerSample.toNat := by
    unfold maskFrame
    by_cases c0 : p > 0
    · rw [if_pos c0]
      have := rs 0 x y (by have := (fmtOk vs.fmt vs.known).planes; omega) (by rw [(ssz p hp c0).1]; exact hxf)
        (by rw [(ssz p hp c0).2]; exact hyf)
      rw [sbits] at this
      exact this
    · rw [if_neg c0]
      have p0 : p = 0 := by omega
      subst p0
      rw [w_first] at hxf
      rw [h_first] at hyf
      have := ra 0 x y (by have := (fmtOk va.fmt va.known).planes; omega) (by rw [w_first]; omega) (by rw [h_first]; omega)
      rw [ab] at this
      exact this
  obtain ⟨k, hk, hkb, hko⟩ := kind_ok (struct_of hc) hw
  have n1 : (stFloat : Int) ≠ stInteger := by decide
  generalize smp al f p x y = v1 at *
  generalize smp al (maskFrame fa fs p) 0 x y = v2 at *
  rw [← zero_eq gv]
  have ho := offset_lt (f := c.vi.format) (by
    rcases gv.1.2.1 with ⟨_, h, _⟩ | ⟨_, h⟩ <;> omega) f.props p
  generalize planeOffset c.vi.format (getLimitedRangeOffset f.props c.vi.format) p = o at *
  unfold premulOut maxOf
  rw [hk]
  cases k with
  | byte =>
    obtain ⟨_, b8, b1⟩ := hko
    rw [b8] at l1 l2 ho ⊢
    rw [b1]
    exact premulByte_ok ho l1 l2
  | word =>
    obtain ⟨_, b9, b16, b2⟩ := hko
    rw [b2]
    exact premulWord_ok (d := c.vi.format.bitsPerSample.toNat) (by omega) (by omega) ho l1 l2
  | single => exact absurd (hko.1.symm.trans ht) n1
  | half => exact absurd (hko.1.symm.trans ht) n1

/-- C67: with samples of type float the sample is multiplied with alpha in floating point arithmetic. -/
theorem C67_premultiply_float {al : Nat} (hal : AlignOk al) (F : Floats) {c alpha : PClip} (hc : ValidClip al c)
    (ha : ValidClip al alpha) (hw : Workable c.vi.format) (ht : c.vi.format.sampleType = stFloat) (hcc : Constant c.vi)
    (hok : AlphaOk c.vi alpha.vi) {small : List PClip} (hsm : Subsampled c.vi.format → Smaller al c.vi small) :
    ∃ C, premulCreate F al c.vi alpha.vi = .ok C ∧ outInfo C (c :: alpha :: small) = some c.vi ∧
      ∀ n f fa fs, at? c n = some f → at? alpha n = some fa →
        (if Subsampled c.vi.format then ∃ s, small[locOf f.props]? = some s ∧ at? s n = some fs else fs = fa) →
        Gives al C (c :: alpha :: small) n c.vi.format f.width f.height f.props fun p x y =>
          (F.premul (if c.vi.format.bitsPerSample = 32 then .single else .half) (smp al f p x y)
            (smp al (maskFrame fa fs p) 0 x y) % 256 ^ bps c.vi.format : Nat) := by
  refine ⟨_, premulCreate_ok F hc hw hcc hok, rfl, ?_⟩
  intro n f fa fs hf hfa hfs
  refine premul_gives hal F hc ha hw hcc hok hsm hf hfa hfs ?_
  intro p x y hp hxf hyf
  obtain ⟨k, hk, hkb, hko⟩ := kind_ok (struct_of hc) hw
  have n1 : (stFloat : Int) ≠ stInteger := by decide
  unfold premulOut
  rw [hk]
  cases k with
  | byte => exact absurd (ht.symm.trans hko.1) n1
  | word => exact absurd (ht.symm.trans hko.1) n1
  | single => rw [if_pos hko.2.1]; rfl
  | half => rw [if_neg (by rw [hko.2.1]; decide)]; rfl

/-- A gray clip of 4 × 4 pixels. -/
def exSmall : PClip := clip1 gray8 4 4 exPx Dict.empty

/-- The alpha of a YUV420P8 clip. -/
def exAlpha : PClip := clip1 gray8 8 8 exPx Dict.empty

theorem exSmall_small : Small 32 exClip.vi exSmall :=
  ⟨clip1_valid ⟨by decide, by decide, by decide, by decide, by decide, by decide, by decide, by decide⟩ _ _,
    ⟨by decide, by decide, by decide⟩, rfl, by decide, by decide⟩

theorem exAlpha_valid : ValidClip 32 exAlpha :=
  clip1_valid ⟨by decide, by decide, by decide, by decide, by decide, by decide, by decide, by decide⟩ _ _

theorem exSmaller : Smaller 32 exClip.vi (List.replicate 6 exSmall) := by
  intro l hl
  refine ⟨exSmall, ?_, exSmall_small⟩
  rw [List.getElem?_replicate, if_pos hl]

example : ∃ C, premulCreate exFloats 32 exClip.vi exAlpha.vi = .ok C := by
  obtain ⟨C, e, _⟩ := C67_premultiply (Or.inl rfl) exFloats exClip_valid exAlpha_valid ⟨by decide, by decide, by decide⟩ rfl
    ⟨by decide, by decide, by decide⟩ ⟨⟨by decide, by decide, by decide⟩, rfl, rfl, rfl, rfl, rfl⟩ (fun _ => exSmaller)
  exact ⟨C, e⟩

/-- Half of the chroma 100 of a limited range clip is 114. -/
example : zeroOf Dict.empty yuv420 1 + scaled (maxOf yuv420) (zeroOf Dict.empty yuv420 1) 128 100 = 114 := by decide

/-- C67: other clips are refused. -/
theorem C67_premultiply_refused {al : Nat} (F : Floats) (c alpha : VInfo)
    (h : ¬ (Workable c.format ∧ Constant c ∧ AlphaOk c alpha)) : ∃ m, premulCreate F al c alpha = .err m := by
  unfold premulCreate
  cases e3 : is8to16orFloat c.format with
  | false => exact ⟨_, rfl⟩
  | true =>
    rw [if_neg (by decide)]
    by_cases h1 : alpha.format.colorFamily ≠ cfGray ∨ alpha.format.sampleType ≠ c.format.sampleType ∨
      alpha.format.bitsPerSample ≠ c.format.bitsPerSample
    · rw [if_pos h1]; exact ⟨_, rfl⟩
    · rw [if_neg h1]
      cases e4 : isConstantVideoFormat c with
      | false => exact ⟨_, rfl⟩
      | true =>
        cases e5 : isConstantVideoFormat alpha with
        | false => exact ⟨_, rfl⟩
        | true =>
          by_cases h2 : c.width ≠ alpha.width ∨ c.height ≠ alpha.height
          · rw [decide_eq_true h2]; exact ⟨_, rfl⟩
          · exact absurd ⟨(workable_iff _).1 e3, (constant_iff _).1 e4, (constant_iff _).1 e5, by omega, by omega, by omega,
              by omega, by omega⟩ h

example : ∃ m, premulCreate exFloats 32 exClip.vi exClip.vi = .err m :=
  C67_premultiply_refused exFloats _ _ (fun h => absurd h.2.2.2.2.2.1 (by decide))

end VS.Merge
