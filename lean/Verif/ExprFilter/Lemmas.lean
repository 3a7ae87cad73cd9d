import Verif.ExprFilter.Spec
import Verif.Average.Props
import Verif.Lut.LemmasFrame
import Verif.Expr.Props

/-! # Lemmas about the filter Expr -/

namespace VS.ExprFilter
open VS VS.Format VS.Map VS.Map.Spec VS.Pix VS.Pix.Spec VS.Point VS.Point.Spec VS.Average VS.Expr VS.ExprFilter.Spec

variable {α : Type}

theorem mem_bytes {f : VFmt} (h : isValidVideoStruct f = true) (hw : Workable f) : memBytes (memOf f) = bps f := by
  obtain ⟨k, _, _, hk⟩ := kind_ok h hw
  have n1 : ¬ (stFloat : Int) = stInteger := by decide
  have n2 : ¬ (stInteger : Int) = stFloat := by decide
  unfold bps at *
  unfold KindOk bps at hk
  unfold memOf
  cases k <;> dsimp only at hk
  · rw [if_pos ⟨hk.1, by omega⟩, hk.2.2]; rfl
  · rw [if_neg (by omega), if_pos ⟨hk.1, by omega⟩, hk.2.2.2]; rfl
  · rw [if_neg (by rw [hk.1]; omega), if_neg (by rw [hk.1]; omega), if_neg (by omega), if_pos ⟨hk.1, by omega⟩, hk.2.2]; rfl
  · rw [if_neg (by rw [hk.1]; omega), if_neg (by rw [hk.1]; omega), if_pos ⟨hk.1, by omega⟩, hk.2.2]; rfl

/-- What the store of a format writes. -/
theorem raw_sample (V : Env α) {f : VFmt} (h : isValidVideoStruct f = true) (hw : Workable f) (v : α) :
    raw V (storeVal V.A (memOf f) (if memOf f = .u16 then f.bitsPerSample.toNat else 0) v) % 256 ^ bps f = sample V f v := by
  obtain ⟨k, _, _, hk⟩ := kind_ok h hw
  have n1 : ¬ (stFloat : Int) = stInteger := by decide
  have n2 : ¬ (stInteger : Int) = stFloat := by decide
  unfold KindOk at hk
  unfold sample
  cases k <;> dsimp only at hk
  · have e : memOf f = .u8 := by unfold bps at hk; unfold memOf; rw [if_pos ⟨hk.1, by omega⟩]
    rw [e, if_neg (show ¬ f.sampleType = stFloat by rw [hk.1]; exact n2), hk.2.1]; rfl
  · have e : memOf f = .u16 := by unfold bps at hk; unfold memOf; rw [if_neg (by omega), if_pos ⟨hk.1, by omega⟩]
    rw [e, if_neg (show ¬ f.sampleType = stFloat by rw [hk.1]; exact n2), if_pos rfl]; rfl
  · have e : memOf f = .f32 := by
      unfold bps at hk; unfold memOf
      rw [if_neg (by rw [hk.1]; omega), if_neg (by rw [hk.1]; omega), if_neg (by omega), if_pos ⟨hk.1, by omega⟩]
    rw [e, if_pos hk.1, if_neg (show ¬ f.bitsPerSample = 16 by omega)]; rfl
  · have e : memOf f = .f16 := by
      unfold bps at hk; unfold memOf
      rw [if_neg (by rw [hk.1]; omega), if_neg (by rw [hk.1]; omega), if_pos ⟨hk.1, by omega⟩]
    rw [e, if_pos hk.1, if_pos hk.2.1]; rfl

/-- Frames that an expression can work on together. -/
structure Alike (al k : Nat) (fs : Nat → Frm) : Prop where
  valid : ∀ i, i < k → Valid al (fs i) ∧ Workable (fs i).fmt
  planes : ∀ i, i < k → (fs i).fmt.numPlanes = (fs 0).fmt.numPlanes
  w : ∀ i, i < k → ∀ p, (fs i).w p = (fs 0).w p
  h : ∀ i, i < k → ∀ p, (fs i).h p = (fs 0).h p

theorem readCell_ok {al p x y : Nat} {fs : Nat → Frm} {bf : Nat → Buf} {v : Nat → Nat} : ∀ (m i : Nat),
    (∀ j, i ≤ j → j < i + m → rd (bf j) (memBytes (memOf (fs j).fmt))
      (y * (fs j).stride al p + x * memBytes (memOf (fs j).fmt) : Nat) = .ok (v j)) →
    readCell al p x y (((List.range' i m).map fs).zip ((List.range' i m).map bf)) = .ok ((List.range' i m).map v) := by
  intro m
  induction m with
  | zero => intro i _; rfl
  | succ m ih =>
    intro i h
    rw [List.range'_succ, List.map_cons, List.map_cons, List.map_cons, List.zip_cons_cons]
    unfold readCell
    rw [h i (by omega) (by omega), Res.bind_ok, ih (i + 1) fun j h1 h2 => h j (by omega) (by omega), Res.bind_ok]

/-- Code that comes from a tree. -/
def CodeOf [DecidableEq α] (fo : VFmt) (t : E α) (code : List (Insn α)) : Prop := generate t (memOf fo) fo.bitsPerSample.toNat = .ok code

theorem run_code [DecidableEq α] (V : Env α) {fo : VFmt} {t : E α} {code : List (Insn α)} (h : CodeOf fo t code) (px : Mem → Nat → α) :
    ∃ regs, run V.A px code (List.replicate (numRegs code) (V.A.ofInt 0)) =
      .ok (storeVal V.A (memOf fo) (if memOf fo = .u16 then fo.bitsPerSample.toNat else 0) (t.eval V.A px), regs) := by
  obtain ⟨code', e, hr⟩ := generate_run V.A px t (memOf fo) fo.bitsPerSample.toNat
  unfold CodeOf at h
  rw [h] at e
  cases e
  obtain ⟨regs, e, _⟩ := hr _ List.length_replicate
  exact ⟨regs, e⟩

/-- One frame. -/
theorem exprFrame_ok [DecidableEq α] (V : Env α) {al : Nat} (hal : AlignOk al) {k : Nat} (hk : 0 < k) {fs : Nat → Frm} (ha : Alike al k fs)
    {fo : VFmt} (geo : Geo fo (fs 0).width (fs 0).height) (hw : Workable fo) (en : fo.numPlanes = (fs 0).fmt.numPlanes)
    (ew : fo.subSamplingW = (fs 0).fmt.subSamplingW) (eh : fo.subSamplingH = (fs 0).fmt.subSamplingH) {op : Nat → PlaneOp}
    (hop : ∀ p, p < 3 → op p ≠ .undefined)
    (hbp : ∀ p : Nat, (p : Int) < fo.numPlanes → op p = .copy → bps (fs 0).fmt = bps fo) {codes : List (List (Insn α))} {trees : Nat → E α}
    (hc : ∀ p : Nat, (p : Int) < fo.numPlanes → op p = .process → CodeOf fo (trees p) (codes.getD p [])) (junk : Junk) :
    ∃ g, exprFrame V al fo op codes ((List.range' 0 k).map fs) junk = .ok g ∧ Valid al g ∧ g.fmt = fo ∧ g.width = (fs 0).width ∧
      g.height = (fs 0).height ∧ g.props = (fs 0).props ∧ ∀ p x y : Nat, (p : Int) < fo.numPlanes → x < g.w p → y < g.h p →
        smp al g p x y = if op p = .process then sample V fo ((trees p).eval V.A (pixels V al k fs p x y)) else smp al (fs 0) p x y := by
  have hal0 := align_pos hal
  obtain ⟨v0, _⟩ := ha.valid 0 hk
  have hnp := (fmtOk v0.fmt v0.known).planes
  have h0 : ((List.range' 0 k).map fs)[0]? = some (fs 0) := by
    rw [List.getElem?_map, List.getElem?_range' hk]; rfl
  let G : Nat → Nat → Nat → Nat := fun p x y =>
    raw V (storeVal V.A (memOf fo) (if memOf fo = .u16 then fo.bitsPerSample.toNat else 0) ((trees p).eval V.A (pixels V al k fs p x y)))
  let shape : Frm := ⟨fo, (fs 0).width, (fs 0).height, [], (fs 0).props⟩
  have sw : ∀ p, shape.w p = (fs 0).w p := by intro p; unfold Frm.w ssw; rw [show shape.fmt = fo from rfl, ew]
  have sh : ∀ p, shape.h p = (fs 0).h p := by intro p; unfold Frm.h ssh; rw [show shape.fmt = fo from rfl, eh]
  have key := flagsTo_ok v0 geo en ew eh (fun p => decide (op p ≠ .copy)) (by
      intro p hp hq
      exact hbp p hp (Decidable.not_not.1 (of_decide_eq_false hq)))
    (fun p b => if op p ≠ .process then .ok b else exprPlane V al (codes.getD p []) ((List.range' 0 k).map fs) shape p b) G (fs 0).props junk ?_
  · obtain ⟨g, e, v, g1, g2, g3, g4, g5⟩ := key
    refine ⟨g, ?_, v, g1, g2, g3, g4, ?_⟩
    · unfold exprFrame
      rw [h0]
      dsimp only
      rw [← e]
      simp only [decide_eq_true_eq]
      obtain ⟨dst, ed, ed2⟩ := bind_eq_ok e
      simp only [decide_eq_true_eq] at ed
      rw [ed, Res.bind_ok, Res.bind_ok]
      obtain ⟨d1, d2, d3⟩ := new_fmt ed
      congr 1
      funext p b
      have e1 : exprPlane V al (codes.getD p []) ((List.range' 0 k).map fs) dst p b =
          exprPlane V al (codes.getD p []) ((List.range' 0 k).map fs) shape p b := by
        unfold exprPlane
        rw [w_eq (f := shape) d1 d2, h_eq (f := shape) d1 d3, stride_eq (f := shape) d1 d2, d1]
      rw [e1]
      cases op p <;> rfl
    · intro p x y hp hx hy
      rw [g5 p x y hp hx hy]
      have hn := hop p (by omega)
      cases ho : op p with
      | process =>
        rw [if_pos (by decide), if_pos rfl]
        exact raw_sample V geo.fmt hw _
      | copy => rfl
      | undefined => exact absurd ho hn
  · intro p b hp hpr hsz
    have hpp : op p = .process := by
      have h1 := of_decide_eq_true hpr
      have h2 := hop p (by omega)
      cases ho : op p with
      | process => rfl
      | copy => exact absurd ho h1
      | undefined => exact absurd ho h2
    rw [if_neg (fun h => h hpp)]
    unfold exprPlane
    have hpl : ∀ i, i < k → ∃ b, (fs i).planes[p]? = some b := by
      intro i hi
      exact Lut.plane_get (ha.valid i hi).1 (by rw [ha.planes i hi, ← en]; exact hp)
    rw [readPtrs_ok (bf := fun i => ((fs i).planes[p]?).getD b) k 0 (by
      intro j _ hj
      obtain ⟨b', e⟩ := hpl j (by omega)
      unfold Frm.plane
      rw [e]
      rfl), Res.bind_ok]
    rw [show shape.fmt = fo from rfl, mem_bytes geo.fmt hw, show shape.stride al p = Frame.strideOf al ((fs 0).w p) (bps fo) by
      unfold Frm.stride; rw [sw], sw, sh]
    refine fill_ok (G := G p) ?_ ?_ hsz
    · have := stride_ge hal0 shape p
      unfold Frm.stride at this
      rw [sw] at this
      exact this
    intro x y hx hy
    rw [readCell_ok (v := fun i => smp al (fs i) p x y) k 0 (by
      intro j _ hj
      obtain ⟨b', e⟩ := hpl j (by omega)
      obtain ⟨v, w⟩ := ha.valid j (by omega)
      rw [mem_bytes v.fmt w, e]
      exact rd_smp hal0 v e (by rw [ha.w j (by omega)]; exact hx) (by rw [ha.h j (by omega)]; exact hy)), Res.bind_ok]
    have epx : (fun (m : Mem) (i : Nat) => V.load m (((List.range' 0 k).map fun i => smp al (fs i) p x y).getD i 0)) =
        pixels V al k fs p x y := by
      funext m i
      unfold pixels
      congr 1
      rw [List.getD_eq_getElem?_getD, List.getElem?_map]
      by_cases hi : i < k
      · rw [List.getElem?_range' hi, if_pos hi]
        simp
      · rw [List.getElem?_eq_none (by rw [List.length_range']; omega), if_neg hi]
        rfl
    rw [epx]
    obtain ⟨regs, e⟩ := run_code V (hc p hp hpp) (pixels V al k fs p x y)
    rw [e, Res.bind_ok]

/-! ## Arguments -/

theorem checkClips_ok {v0 : VInfo} {l : List VInfo} : checkClips v0 l = .ok () ↔
    ∀ v ∈ l, Constant v ∧ Workable v.format ∧ v.format.numPlanes = v0.format.numPlanes ∧
    v.format.subSamplingW = v0.format.subSamplingW ∧ v.format.subSamplingH = v0.format.subSamplingH ∧ v.width = v0.width ∧
    v.height = v0.height := by
  induction l with
  | nil => simp [checkClips]
  | cons v t ih =>
    rw [List.forall_mem_cons, checkClips, ← ih]
    cases h1 : isConstantVideoFormat v with
    | false =>
      have : ¬ Constant v := fun c => by rw [(constant_iff v).2 c] at h1; cases h1
      simp [this]
    | true =>
      rw [if_neg (by decide)]
      have k1 := (constant_iff v).1 h1
      split
      · next c => exact ⟨fun h => (by cases h), fun h => by omega⟩
      · next c =>
        cases h2 : is8to16orFloat v.format with
        | false =>
          have : ¬ Workable v.format := fun c => by rw [(workable_iff _).2 c] at h2; cases h2
          simp [this]
        | true =>
          rw [if_neg (by decide)]
          exact ⟨fun h => ⟨⟨k1, (workable_iff _).1 h2, by omega⟩, h⟩, fun h => h.2⟩

theorem checkClips_bad {v0 : VInfo} {l : List VInfo} (h : checkClips v0 l ≠ .ok ()) : ∃ m, checkClips v0 l = .err m := by
  induction l with
  | nil => exact absurd rfl h
  | cons v t ih =>
    unfold checkClips at h ⊢
    repeat' split
    · exact ⟨_, rfl⟩
    · exact ⟨_, rfl⟩
    · exact ⟨_, rfl⟩
    · next c1 c2 c3 =>
      rw [if_neg c1, if_neg c2, if_neg c3] at h
      exact ih h

theorem textOf_is {es : List (List Char)} (h : es ≠ []) (p : Nat) : IsText es p (textOf es p) := by
  unfold IsText textOf
  cases e : es[p]? with
  | some s => exact Or.inl rfl
  | none =>
    refine Or.inr ⟨List.getElem?_eq_none_iff.1 e, ?_⟩
    cases e2 : es.getLast? with
    | none => exact absurd (List.getLast?_eq_none_iff.1 e2) h
    | some s => rfl

theorem is_textOf {es : List (List Char)} {p : Nat} {s : List Char} (h : IsText es p s) : textOf es p = s := by
  unfold textOf
  rcases h with h | ⟨h1, h2⟩
  · rw [h]
  · rw [List.getElem?_eq_none h1, h2]; rfl

theorem compileLoop_ok [DecidableEq α] (V : Env α) (vis : List VInfo) (fo : VFmt) (text : Nat → List Char) {cd : Nat → List (Insn α)} :
    ∀ (k i : Nat), (∀ j, i ≤ j → j < i + k → compilePlane V vis fo (text j) = .ok (cd j)) →
      compileLoop V vis fo text k i = .ok ((List.range' i k).map cd) := by
  intro k
  induction k with
  | zero => intro i _; rfl
  | succ k ih =>
    intro i h
    unfold compileLoop
    rw [h i (by omega) (by omega), Res.bind_ok, ih (i + 1) fun j h1 h2 => h j (by omega) (by omega), Res.bind_ok, List.range'_succ,
      List.map_cons]

theorem outFormat_ok {r : Reg} {f fo : VFmt} {format : Option Nat} (hg : GoodVideo f) (ho : Output r f format fo) :
    outFormat r f format = .ok fo ∧ GoodVideo fo ∧ fo.colorFamily = f.colorFamily ∧ fo.subSamplingW = f.subSamplingW ∧
      fo.subSamplingH = f.subSamplingH ∧ fo.numPlanes = f.numPlanes := by
  have hw := (workable_iff fo).2 ho.work
  unfold outFormat wantedFormat
  cases format with
  | none =>
    cases ho.same rfl
    dsimp only
    rw [Res.bind_ok, hw]
    exact ⟨rfl, hg, rfl, rfl, rfl, rfl⟩
  | some id =>
    obtain ⟨e, g, e1, e2, e3⟩ := ho.given id rfl
    have en : fo.numPlanes = f.numPlanes := by rw [g.2.2, hg.2.2, e1]
    have hk := ho.work.1
    dsimp only
    rw [e]
    dsimp only
    rw [if_neg (by rintro (h | h); cases h; exact hk h), if_neg (by omega), if_neg (by omega), (C20_struct_check fo hk).2.1 g, Res.bind_ok, hw]
    exact ⟨rfl, g, e1, e2, e3, en⟩

/-- What a format that is accepted is like. -/
theorem outFormat_inv {r : Reg} {f : VFmt} {format : Option Nat} (hg : GoodVideo f) : (∃ m, outFormat r f format = .err m) ∨
    ∃ fo, outFormat r f format = .ok fo ∧ Workable fo ∧ GoodVideo fo ∧ fo.colorFamily = f.colorFamily ∧ fo.numPlanes = f.numPlanes ∧
      fo.subSamplingW = f.subSamplingW ∧ fo.subSamplingH = f.subSamplingH ∧ FormatFits r f format := by
  have key : (∃ m, wantedFormat r f format = .err m) ∨ ∃ fo, wantedFormat r f format = .ok fo ∧ (Workable fo →
      GoodVideo fo ∧ fo.colorFamily = f.colorFamily ∧ fo.subSamplingW = f.subSamplingW ∧ fo.subSamplingH = f.subSamplingH ∧ FormatFits r f format) := by
    unfold wantedFormat
    cases format with
    | none => exact Or.inr ⟨f, rfl, fun _ => ⟨hg, rfl, rfl, rfl, fun _ h => by cases h⟩⟩
    | some id =>
      dsimp only
      generalize hq : getVideoFormatByID r id = q
      split
      · exact Or.inl ⟨_, rfl⟩
      split
      · exact Or.inl ⟨_, rfl⟩
      split
      · exact Or.inl ⟨_, rfl⟩
      next c1 c2 c3 =>
      refine Or.inr ⟨_, rfl, fun w => ?_⟩
      obtain ⟨_, h2, h3⟩ := C20_query_video q.2.colorFamily q.2.sampleType q.2.bitsPerSample q.2.subSamplingW q.2.subSamplingH
      by_cases d : Documented q.2.colorFamily q.2.sampleType q.2.bitsPerSample q.2.subSamplingW q.2.subSamplingH
      · obtain ⟨g, e1, e2, e3, e4, e5⟩ := h2 d
        refine ⟨g, by rw [e1]; omega, by rw [e4]; omega, by rw [e5]; omega, ?_⟩
        intro id' h
        cases h
        unfold Workable at w
        rw [e1, e2, e3] at w
        refine ⟨q.2, ?_, w, by omega, by omega, by omega⟩
        rw [hq]
        obtain ⟨q1, q2⟩ := q
        cases q1
        · exact absurd (Or.inl rfl) c1
        · rfl
      · rw [h3 d] at w
        exact absurd rfl w.1
  unfold outFormat
  rcases key with ⟨m, e⟩ | ⟨fo, e, h⟩
  · rw [e]; exact Or.inl ⟨m, rfl⟩
  · rw [e, Res.bind_ok]
    cases hw : is8to16orFloat fo with
    | false => exact Or.inl ⟨_, rfl⟩
    | true =>
      have w := (workable_iff fo).1 hw
      obtain ⟨g, e1, e2, e3, e4⟩ := h w
      exact Or.inr ⟨fo, rfl, w, g, e1, by rw [g.2.2, hg.2.2, e1], e2, e3, e4⟩

end VS.ExprFilter
