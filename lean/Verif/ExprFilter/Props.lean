import Verif.ExprFilter.Lemmas

/-! # C100: the filter Expr -/

namespace VS.ExprFilter
open VS VS.Format VS.Map VS.Map.Spec VS.Pix VS.Pix.Spec VS.Point VS.Point.Spec VS.Average VS.Expr VS.ExprFilter.Spec

variable {α : Type}

/-- The text of an expression is translated to a tree and optimized. -/
def Translates [DecidableEq α] (V : Env α) (vis : List VInfo) (s : List Char) (t : E α) : Prop :=
  ∃ e, parseExpr V.num (clipMem vis) vis.length s = .ok e ∧ optimize V.A V.keep V.twice V.nan e = .ok t

/-- C100: Expr makes a clip like the first one in the given format. In a plane with an expression every sample is the value of the
(optimized) expression for the samples of all clips at the same place, clamped and rounded for integers; clips that are shorter are
continued with their last frame. Planes with an empty expression are copied from the first clip. The last expression counts for the
remaining planes, the properties are those of the first clip. It is partial because planes without expression must have samples of
the same kind as before: else their content is not defined (C100_undefined). The planes are computed by the interpreter. -/
theorem C100_frames_partial [DecidableEq α] (V : Env α) (r : Reg) {al : Nat} (hal : AlignOk al) {c : PClip} {rest : List PClip}
    (hv : ∀ d ∈ c :: rest, ValidClip al d) (hi : Inputs c.vi ((c :: rest).map (·.vi))) {a : Args} {fo : VFmt}
    (ho : Output r c.vi.format a.format fo) (hr : c.vi.width * bps fo ≤ INT_MAX) (hne : a.exprs ≠ [])
    (hl : (a.exprs.length : Int) ≤ fo.numPlanes) {text : Nat → List Char} (ht : ∀ p, p < 3 → IsText a.exprs p (text p))
    (hu : [] ∉ a.exprs ∨ (fo.bitsPerSample = c.vi.format.bitsPerSample ∧ fo.sampleType = c.vi.format.sampleType)) {trees : Nat → E α}
    (htr : ∀ p : Nat, (p : Int) < fo.numPlanes → text p ≠ [] → Translates V ((c :: rest).map (·.vi)) (text p) (trees p)) :
    ∃ C, exprCreate V r al ((c :: rest).map (·.vi)) a = .ok C ∧ outInfo C (c :: rest) = some { c.vi with format := fo } ∧
      ∀ (n : Nat) (fs : Nat → Frm), (∀ i d, (c :: rest)[i]? = some d → at? d n = some (fs i)) →
        Gives al C (c :: rest) n fo (fs 0).width (fs 0).height (fs 0).props fun p x y =>
          if text p = [] then smp al (fs 0) p x y
          else sample V fo ((trees p).eval V.A (pixels V al (rest.length + 1) fs p x y)) := by
  have hvc := hv c List.mem_cons_self
  obtain ⟨k0, w0, _⟩ := hi.each c.vi (by simp)
  have hg0 := good_of (struct_of hvc) k0.2.2
  obtain ⟨eo, hg, e1, e2, e3, en⟩ := outFormat_ok hg0 ho
  have hnp : fo.numPlanes ≤ 3 := by
    have := (fmtOk (struct_of hvc) k0.2.2).planes
    rw [en]; omega
  have hnp0 : 0 ≤ fo.numPlanes := by omega
  have htx : ∀ p, p < 3 → textOf a.exprs p = text p := fun p hp => is_textOf (ht p hp)
  have hmem : ∀ p, p < 3 → text p ∈ a.exprs := by
    intro p hp
    rcases ht p hp with h | ⟨_, h⟩
    · exact List.mem_of_getElem? h
    · exact List.mem_of_getLast? h
  -- the code of the planes
  have hcode : ∀ p : Nat, ∃ code, (p : Int) < fo.numPlanes →
      compilePlane V ((c :: rest).map (·.vi)) fo (textOf a.exprs p) = .ok code ∧
      (text p ≠ [] → CodeOf fo (trees p) code) := by
    intro p
    by_cases hp : (p : Int) < fo.numPlanes
    · by_cases hx : text p = []
      · exact ⟨[], fun _ => ⟨by unfold compilePlane; rw [htx p (by omega), if_pos hx], fun h => absurd hx h⟩⟩
      · obtain ⟨e, h1, h2⟩ := htr p hp hx
        obtain ⟨code, h3, _⟩ := generate_run V.A (fun _ _ => V.nan) (trees p) (memOf fo) fo.bitsPerSample.toNat
        refine ⟨code, fun _ => ⟨?_, fun _ => h3⟩⟩
        unfold compilePlane
        rw [htx p (by omega), if_neg hx]
        unfold compileText compile
        rw [h1, Res.bind_ok, h2, Res.bind_ok, h3]
    · exact ⟨[], fun h => absurd h hp⟩
  obtain ⟨cd, hcd⟩ := Classical.axiomOfChoice hcode
  have hloop := compileLoop_ok V ((c :: rest).map (·.vi)) fo (textOf a.exprs) (cd := cd) fo.numPlanes.toNat 0 (by
    intro j _ hj
    exact (hcd j (by omega)).1)
  refine ⟨.filter (exprFilter V al { c.vi with format := fo } (rest.length + 1) (fun p => opOf c.vi.format fo (textOf a.exprs p))
    ((List.range' 0 fo.numPlanes.toNat).map cd)), ?_, rfl, ?_⟩
  · unfold exprCreate
    rw [if_neg (by have := hi.count; omega)]
    rw [List.map_cons] at hloop hi ⊢
    dsimp only
    rw [checkClips_ok.2 hi.each, Res.bind_ok, eo, Res.bind_ok, if_neg (by omega), if_neg hne, hloop, Res.bind_ok]
    rw [show (c.vi :: rest.map (·.vi)).length = rest.length + 1 by simp]
    refine create_ok ?_
    have := (info_iff _).1 hvc.info
    exact (info_iff _).2 ⟨(C20_struct_check fo ho.work.1).1.2 hg, this.2⟩
  · intro n fs hfs
    have hin : ∀ i, i < rest.length + 1 → ∃ d, (c :: rest)[i]? = some d ∧ d ∈ c :: rest ∧ at? d n = some (fs i) := by
      intro i hi
      have e : (c :: rest)[i]? = some ((c :: rest)[i]'(by rw [List.length_cons]; exact hi)) := List.getElem?_eq_getElem _
      exact ⟨_, e, List.mem_of_getElem? e, hfs i _ e⟩
    have hfr : ∀ i, i < rest.length + 1 → Valid al (fs i) ∧ Workable (fs i).fmt ∧ (fs i).fmt.numPlanes = c.vi.format.numPlanes ∧
        (fs i).fmt.subSamplingW = c.vi.format.subSamplingW ∧ (fs i).fmt.subSamplingH = c.vi.format.subSamplingH ∧
        ((fs i).width : Int) = c.vi.width ∧ ((fs i).height : Int) = c.vi.height := by
      intro i hi'
      obtain ⟨d, _, hd, hat⟩ := hin i hi'
      obtain ⟨kd, wd, q1, q2, q3, q4, q5⟩ := hi.each d.vi (List.mem_map_of_mem hd)
      obtain ⟨v, f1, f2, f3⟩ := const_frame (hv d hd) kd (at_mem hat)
      rw [f1]
      exact ⟨v, wd, q1, q2, q3, by omega, by omega⟩
    obtain ⟨va, a1, a2, a3⟩ := const_frame hvc k0 (at_mem (hfs 0 c rfl))
    have ali : Alike al (rest.length + 1) fs := by
      refine ⟨fun i h => ⟨(hfr i h).1, (hfr i h).2.1⟩, fun i h => ?_, fun i h p => ?_, fun i h p => ?_⟩
      · obtain ⟨_, _, q, _⟩ := hfr i h
        rw [q, a1]
      · obtain ⟨_, _, _, q, _, q4, _⟩ := hfr i h
        unfold Frm.w ssw
        rw [q, a1, show (fs i).width = (fs 0).width by omega]
      · obtain ⟨_, _, _, _, q, _, q5⟩ := hfr i h
        unfold Frm.h ssh
        rw [q, a1, show (fs i).height = (fs 0).height by omega]
    have hbp : (fo.bitsPerSample = c.vi.format.bitsPerSample ∧ fo.sampleType = c.vi.format.sampleType) → bps c.vi.format = bps fo := by
      intro h
      have : fo.bytesPerSample = c.vi.format.bytesPerSample := by
        refine smallestBytes_unique hg.2.1 ?_
        rw [h.1]
        exact hg0.2.1
      unfold bps
      rw [this]
    refine gives_of rfl a2.symm a3.symm ?_
    intro junk
    have geo : Geo fo (fs 0).width (fs 0).height :=
      ⟨(C20_struct_check fo ho.work.1).1.2 hg, ho.work.1, va.width, va.height, by rw [e2, ← a1]; exact va.modW, by rw [e3, ← a1]; exact va.modH,
        by rw [a2]; exact hr, va.rows⟩
    obtain ⟨g, e, v, g1, g2, g3, g4, g5⟩ := exprFrame_ok V hal (k := rest.length + 1) (by omega) ali geo ho.work (by rw [a1, en]) (by rw [a1, e2])
      (by rw [a1, e3]) (op := fun p => opOf c.vi.format fo (textOf a.exprs p)) (by
        intro p hp
        show opOf _ _ _ ≠ _
        unfold opOf
        rw [htx p hp]
        by_cases hx : text p = []
        · rw [if_neg (fun h => h hx)]
          rcases hu with hu | hu
          · exact absurd (hx ▸ hmem p hp) hu
          · rw [if_pos hu]; exact fun h => by cases h
        · rw [if_pos hx]; exact fun h => by cases h) (by
        intro p hp hq
        change opOf _ _ _ = _ at hq
        unfold opOf at hq
        rw [a1]
        by_cases hx : textOf a.exprs p = []
        · rw [if_neg (fun h => h hx)] at hq
          by_cases hb : fo.bitsPerSample = c.vi.format.bitsPerSample ∧ fo.sampleType = c.vi.format.sampleType
          · exact hbp hb
          · rw [if_neg hb] at hq; cases hq
        · rw [if_pos hx] at hq; cases hq) (codes := (List.range' 0 fo.numPlanes.toNat).map cd) (trees := trees) (by
        intro p hp hq
        change opOf _ _ _ = _ at hq
        unfold opOf at hq
        rw [htx p (by omega)] at hq
        have hx : text p ≠ [] := by
          intro hx
          rw [if_neg (fun h => h hx)] at hq
          split at hq <;> cases hq
        have := (hcd p hp).2 hx
        rw [List.getD_eq_getElem?_getD, List.getElem?_map, List.getElem?_range' (by omega)]
        simpa using this) junk
    refine ⟨g, ?_, v, g1, g2, g3, g4, ?_⟩
    · show (getEach (getFrameFilter (c :: rest) ((List.range (rest.length + 1)).map fun i => (i, n))) n (rest.length + 1) 0 >>= fun frames =>
        exprFrame V al fo _ _ frames junk) = _
      rw [getEach_ok (fs := fs) (rest.length + 1) 0 (by
        intro j hj
        rw [Nat.zero_add]
        obtain ⟨d, e, hd, hat⟩ := hin j hj
        have hm : (j, n) ∈ (List.range (rest.length + 1)).map fun i => (i, n) := List.mem_map.2 ⟨j, List.mem_range.2 hj, rfl⟩
        exact get_ok e (hv d hd) hm hat), Res.bind_ok]
      exact e
    · intro p x y hp hx hy
      rw [g5 p x y hp hx hy]
      unfold opOf
      rw [htx p (by omega)]
      by_cases h : text p = []
      · rw [if_neg (show ¬ text p ≠ [] from fun q => q h), if_pos h, if_neg (by split <;> exact fun q => by cases q)]
      · rw [if_pos h, if_pos rfl, if_neg h]

/-- C100: the value of an expression that the optimizer does not change is that of the text in reverse Polish notation, with `x`, `y`,
`z`, `a`, ... for the samples of the clips. -/
theorem C100_text [DecidableEq α] (V : Env α) {vis : List VInfo} {s : List Char} {t : E α} (h : Translates V vis s t) (px : Mem → Nat → α)
    (hk : ∀ e, parseExpr V.num (clipMem vis) vis.length s = .ok e → t.eval V.A px = e.eval V.A px) :
    ∃ ts, tokensOf V.num (tokenize s) = some ts ∧ rpn V.A (fun i => px (clipMem vis i) i) vis.length ts [] = some [t.eval V.A px] := by
  obtain ⟨e, h1, _⟩ := h
  rw [hk e h1]
  exact C51_value h1 V.A px

/-- C100: clips that do not go together, formats with other planes and too many expressions are refused. -/
theorem C100_refused [DecidableEq α] (V : Env α) (r : Reg) (al : Nat) {v0 : VInfo} {rest : List VInfo} (hs : isValidVideoStruct v0.format = true)
    {a : Args} (h : ¬ (Inputs v0 (v0 :: rest) ∧ FormatFits r v0.format a.format ∧ (a.exprs.length : Int) ≤ v0.format.numPlanes)) :
    ∃ m, exprCreate V r al (v0 :: rest) a = .err m := by
  unfold exprCreate
  by_cases hc : (v0 :: rest).length > 26
  · rw [if_pos hc]; exact ⟨_, rfl⟩
  rw [if_neg hc]
  dsimp only
  by_cases h1 : checkClips v0 (v0 :: rest) = .ok ()
  · have hi : Inputs v0 (v0 :: rest) := ⟨by omega, checkClips_ok.1 h1⟩
    have k0 := (hi.each v0 List.mem_cons_self).1
    rw [h1, Res.bind_ok]
    rcases outFormat_inv (r := r) (format := a.format) (good_of hs k0.2.2) with ⟨m, e⟩ | ⟨fo, e, hw, q⟩
    · rw [e]; exact ⟨m, rfl⟩
    · rw [e, Res.bind_ok]
      by_cases hl : (a.exprs.length : Int) > fo.numPlanes
      · rw [if_pos hl]; exact ⟨_, rfl⟩
      · exact absurd ⟨hi, q.2.2.2.2.2, by have := q.2.2.1; omega⟩ h
  · obtain ⟨m, e⟩ := checkClips_bad h1
    rw [e]; exact ⟨m, rfl⟩

/-! ## Examples -/

/-- Exact arithmetic. -/
def exEnv : Env Rat := ⟨ratArith, ratNum, id, fun _ _ => false, 0, fun _ v => v, fun _ => 0, fun _ => 0⟩

/-- No formats of version 3. -/
def exReg : Reg := ⟨[], 1000⟩

def clipA : PClip := clip1 gray8 4 2 (fun _ k => 5 * k) Dict.empty
def clipB : PClip := clip1 gray10 4 2 (fun _ k => if k % 2 = 0 then 4 + k else 0) Dict.empty

/-- The number of the format GRAY10. -/
def idGray10 : Nat := 1 * 2 ^ 28 + 10 * 2 ^ 16

/-- `x y +` -/
def sumTree : E Rat := .bin none .add (.load none .u8 0) (.load none .u16 1)

theorem exInputs : Inputs clipA.vi ([clipA, clipB].map (·.vi)) := by
  refine ⟨by decide, ?_⟩
  intro v hv
  simp only [List.map_cons, List.map_nil, List.mem_cons, List.not_mem_nil, or_false] at hv
  rcases hv with rfl | rfl
  · exact ⟨⟨by decide, by decide, by decide⟩, ⟨by decide, by decide, by decide⟩, rfl, rfl, rfl, rfl, rfl⟩
  · exact ⟨⟨by decide, by decide, by decide⟩, ⟨by decide, by decide, by decide⟩, rfl, rfl, rfl, rfl, rfl⟩

theorem exOutput : Output exReg clipA.vi.format (some idGray10) gray10 := by
  refine ⟨⟨by decide, by decide, by decide⟩, fun h => (by cases h), ?_⟩
  intro id h
  cases h
  exact ⟨by decide +kernel, good_of gray10_geo.fmt gray10_geo.known, rfl, rfl, rfl⟩

/-- The same after the optimizer, which numbers the nodes. -/
def numTree : E Rat := .bin (some 2) .add (.load (some 0) .u8 0) (.load (some 1) .u16 1)

theorem exTree : Translates exEnv ([clipA, clipB].map (·.vi)) "x y +".toList numTree :=
  ⟨sumTree, by decide +kernel, by decide +kernel⟩

theorem exValid : ∀ d ∈ [clipA, clipB], ValidClip 32 d := by
  intro d hd
  simp only [List.mem_cons, List.not_mem_nil, or_false] at hd
  rcases hd with rfl | rfl
  · exact clip1_valid gray8_geo _ _
  · exact clip1_valid gray10_geo _ _

/-- The sum of a clip with 8 and one with 10 bits, as 10 bits: 5 + 6. -/
example : ∃ C, exprCreate exEnv exReg 32 ([clipA, clipB].map (·.vi)) ⟨["x y +".toList], some idGray10⟩ = .ok C ∧
    ∃ g, C.frame [clipA, clipB] 0 (fun _ _ => 7) = .ok g ∧ smp 32 g 0 1 0 = 11 := by
  obtain ⟨C, e, _, h⟩ := C100_frames_partial exEnv exReg (Or.inl rfl) exValid exInputs (a := ⟨["x y +".toList], some idGray10⟩) exOutput
    (by decide) (by decide) (by decide) (text := fun _ => "x y +".toList) (by
      intro p _
      match p with
      | 0 => exact Or.inl rfl
      | p + 1 => exact Or.inr ⟨by show 1 ≤ p + 1; omega, rfl⟩) (Or.inl (by decide)) (trees := fun _ => numTree) (fun _ _ _ => exTree)
  obtain ⟨g, e1, _, g1, g2, g3, _, g4⟩ := h 0 (fun i => if i = 0 then mkFrame 32 gray8 4 2 (fun _ k => 5 * k) Dict.empty else
      mkFrame 32 gray10 4 2 (fun _ k => if k % 2 = 0 then 4 + k else 0) Dict.empty) (by
    intro i d hd
    match i, hd with
    | 0, hd => cases hd; exact clip1_at ..
    | 1, hd => cases hd; exact clip1_at ..) (fun _ _ => 7)
  refine ⟨C, e, g, e1, ?_⟩
  have := g4 0 1 0 (by decide) (by unfold Frm.w; rw [g2]; rw [g1]; decide) (by unfold Frm.h; rw [g3]; rw [g1]; decide)
  dsimp only at this
  rw [if_neg (by decide)] at this
  have e2 : sample exEnv gray10 (numTree.eval exEnv.A (pixels exEnv 32 (([clipB] : List PClip).length + 1) (fun i => if i = 0 then
      mkFrame 32 gray8 4 2 (fun _ k => 5 * k) Dict.empty else mkFrame 32 gray10 4 2 (fun _ k => if k % 2 = 0 then 4 + k else 0) Dict.empty)
      0 1 0)) = 11 := by decide +kernel
  rw [e2] at this
  omega

example : ∃ ts, tokensOf ratNum (tokenize "x y +".toList) = some ts ∧
    rpn ratArith (fun i => (i : Rat)) 2 ts [] = some [numTree.eval ratArith fun _ i => (i : Rat)] :=
  C100_text exEnv exTree (fun _ i => (i : Rat)) fun e h => by
    have : parseExpr exEnv.num (clipMem ([clipA, clipB].map (·.vi))) ([clipA, clipB].map (·.vi)).length "x y +".toList = .ok sumTree := by
      decide +kernel
    rw [this] at h
    cases h
    rfl

/-- Two expressions for one plane. -/
example : ∃ m, exprCreate exEnv exReg 32 [clipA.vi] ⟨["x".toList, "x".toList], none⟩ = .err m := by
  refine C100_refused exEnv exReg 32 gray8_geo.fmt ?_
  rintro ⟨_, _, h⟩
  exact absurd h (by decide)

/-- The sample at the left upper corner of the result of Expr with an empty expression and the format GRAY10, if memory contains `b`. -/
def corner (b : Nat) : Option Nat :=
  match exprCreate exEnv exReg 32 [clipA.vi] ⟨[[]], some idGray10⟩ with
  | .ok C => match C.frame [clipA] 0 (fun _ _ => b) with
    | .ok g => some (smp 32 g 0 0 0)
    | _ => none
  | _ => none

/-- C100: if the samples of the result are of another kind, a plane with an empty expression contains what was in memory. That is
documented. -/
theorem C100_undefined : corner 1 = some 257 ∧ corner 2 = some 514 := by decide +kernel

end VS.ExprFilter
