import Verif.Lut.Spec
import Verif.Point.LemmasClip

/-! # Lemmas about the tables -/

namespace VS.Lut
open VS VS.Format VS.Map VS.Map.Spec VS.Pix VS.Pix.Spec VS.Point VS.Point.Spec VS.Lut.Spec

theorem out_unique {a : Args} {f fo fo' : VFmt} (h : OutOk a f fo) (h' : OutOk a f fo') : fo = fo' := by
  obtain ⟨a1, a2, a3, a4, a5, a6⟩ := h
  obtain ⟨b1, b2, b3, b4, b5, b6⟩ := h'
  have ext : ∀ x y : VFmt, x.colorFamily = y.colorFamily → x.sampleType = y.sampleType → x.bitsPerSample = y.bitsPerSample →
      x.bytesPerSample = y.bytesPerSample → x.subSamplingW = y.subSamplingW → x.subSamplingH = y.subSamplingH →
      x.numPlanes = y.numPlanes → x = y := by
    rintro ⟨⟩ ⟨⟩ h1 h2 h3 h4 h5 h6 h7
    cases h1; cases h2; cases h3; cases h4; cases h5; cases h6; cases h7; rfl
  by_cases c : FloatOut a
  · obtain ⟨p1, p2, p3, _⟩ := a6 c
    obtain ⟨q1, q2, q3, _⟩ := b6 c
    exact ext _ _ (a1.trans b1.symm) (p1.trans q1.symm) (p2.trans q2.symm) (p3.trans q3.symm) (a2.trans b2.symm) (a3.trans b3.symm)
      (a4.trans b4.symm)
  · obtain ⟨p1, p2, _, _, p3⟩ := a5 c
    obtain ⟨q1, q2, _, _, q3⟩ := b5 c
    have e := p2.trans q2.symm
    refine ext _ _ (a1.trans b1.symm) (p1.trans q1.symm) e ?_ (a2.trans b2.symm) (a3.trans b3.symm) (a4.trans b4.symm)
    rw [p3, q3, e]

theorem outFormat_spec (name : String) (a : Args) {f : VFmt} (h : GoodVideo f) :
    (∃ fo, outFormat name a f = .ok fo ∧ OutOk a f fo ∧ GoodVideo fo) ∨
      ((∃ m, outFormat name a f = .err m) ∧ ¬ ∃ fo, OutOk a f fo) := by
  obtain ⟨⟨d1, d2, d3, d4, d5⟩, d6, d7⟩ := h
  by_cases c : FloatOut a
  · have ec : decide (a.floatout.getD 0 ≠ 0) = true := decide_eq_true c
    by_cases hb : a.bits = none ∨ a.bits = some 32
    · left
      obtain ⟨_, q2, _⟩ := C20_query_video f.colorFamily stFloat 32 f.subSamplingW f.subSamplingH
      obtain ⟨g, e1, e2, e3, e4, e5⟩ := q2 ⟨d1, Or.inr ⟨rfl, Or.inr rfl⟩, d3, d4, d5⟩
      refine ⟨_, ?_, ⟨e1, e4, e5, ?_, fun n => absurd c n, fun _ => ⟨e2, e3, ?_, hb⟩⟩, g⟩
      · unfold outFormat
        dsimp only
        rw [ec]
        have : bitsOut a true f = 32 := by
          unfold bitsOut
          rcases hb with e | e <;> rw [e] <;> rfl
        rw [this, if_neg (by decide)]
        rfl
      · have := g.2.2
        rw [this, d7, e1]
      · exact bytes_4 g.2.1 (by omega) (by omega)
    · right
      have hne : ∃ b, a.bits = some b ∧ b ≠ 32 := by
        cases e : a.bits with
        | none => exact absurd (Or.inl e) hb
        | some b => exact ⟨b, rfl, fun c => hb (Or.inr (by rw [e, c]))⟩
      obtain ⟨b, eb, nb⟩ := hne
      refine ⟨?_, ?_⟩
      · unfold outFormat
        dsimp only
        rw [ec, show bitsOut a true f = int64ToIntS b by unfold bitsOut; rw [eb]]
        rw [if_pos]
        · exact ⟨_, rfl⟩
        · left
          refine ⟨rfl, ?_⟩
          unfold int64ToIntS INT_MAX INT_MIN
          split <;> (try split) <;> omega
      · rintro ⟨fo, ho⟩
        exact hb (ho.float c).2.2.2
  · have ec : decide (a.floatout.getD 0 ≠ 0) = false := decide_eq_false c
    have key : bitsOut a false f = int64ToIntS (a.bits.getD f.bitsPerSample) := by
      unfold bitsOut
      cases e : a.bits with
      | some b => rfl
      | none =>
        dsimp only [Option.getD]
        have : 0 ≤ f.bitsPerSample ∧ f.bitsPerSample ≤ 32 := by omega
        rw [int64ToIntS_of_inI32 (by unfold InI32 INT_MIN INT_MAX; omega)]
        rfl
    by_cases hb : 8 ≤ a.bits.getD f.bitsPerSample ∧ a.bits.getD f.bitsPerSample ≤ 16
    · left
      have ei : int64ToIntS (a.bits.getD f.bitsPerSample) = a.bits.getD f.bitsPerSample :=
        int64ToIntS_of_inI32 (by unfold InI32 INT_MIN INT_MAX; omega)
      generalize hB : a.bits.getD f.bitsPerSample = B at *
      obtain ⟨_, q2, _⟩ := C20_query_video f.colorFamily stInteger B f.subSamplingW f.subSamplingH
      obtain ⟨g, e1, e2, e3, e4, e5⟩ := q2 ⟨d1, Or.inl ⟨rfl, by omega, by omega⟩, d3, d4, d5⟩
      refine ⟨_, ?_, ⟨e1, e4, e5, ?_, fun _ => ⟨e2, e3.trans hB.symm, by omega, by omega, ?_⟩, fun n => absurd n c⟩, g⟩
      · unfold outFormat
        dsimp only
        rw [ec, key, ei, if_neg]
        · rfl
        · rintro (⟨h, _⟩ | ⟨_, h⟩)
          · exact absurd h (by decide)
          · omega
      · have := g.2.2
        rw [this, d7, e1]
      · by_cases e8 : B = 8
        · rw [if_pos (e3.trans e8)]
          exact bytes_1 g.2.1 (e3.trans e8)
        · rw [if_neg (by omega)]
          exact bytes_2 g.2.1 (by omega) (by omega)
    · right
      refine ⟨?_, ?_⟩
      · unfold outFormat
        dsimp only
        rw [ec, key, if_pos]
        · exact ⟨_, rfl⟩
        · right
          refine ⟨rfl, ?_⟩
          unfold int64ToIntS INT_MAX INT_MIN
          split <;> (try split) <;> omega
      · rintro ⟨fo, ho⟩
        obtain ⟨_, p2, p3, p4, _⟩ := ho.int c
        exact hb (by omega)

variable (F : Conv)

theorem funcToLut_ok {name : String} {prefixed isInt : Bool} {nx nout : Nat} {f : Nat → Nat → Ret} {T : Nat → Nat} :
    ∀ (k i : Nat) (t : Nat → Nat),
      (∀ j, i ≤ j → j < i + k → entry F name prefixed isInt nout (f (j % nx) (j / nx)) = .inr (T j)) →
      ∃ t', funcToLut F name prefixed isInt nx nout f k i t = ("", t') ∧ (∀ j, i ≤ j → j < i + k → t' j = T j) ∧
        ∀ j, j < i → t' j = t j := by
  intro k
  induction k with
  | zero => exact fun i t _ => ⟨t, rfl, fun j h h' => by omega, fun _ _ => rfl⟩
  | succ k ih =>
    intro i t h
    obtain ⟨t', e, h1, h2⟩ := ih (i + 1) (set t i (T i)) (fun j hj hj' => h j (by omega) (by omega))
    refine ⟨t', ?_, ?_, ?_⟩
    · unfold funcToLut
      rw [h i (by omega) (by omega)]
      exact e
    · intro j hj hj'
      by_cases c : j = i
      · rw [h2 j (by omega), c]
        unfold set
        rw [if_pos rfl]
      · exact h1 j (by omega) (by omega)
    · intro j hj
      rw [h2 j (by omega)]
      unfold set
      rw [if_neg (by omega)]

theorem funcToLut_bad {name : String} {prefixed isInt : Bool} {nx nout : Nat} {f : Nat → Nat → Ret} :
    ∀ (k i : Nat) (t : Nat → Nat),
      (∃ j m, i ≤ j ∧ j < i + k ∧ entry F name prefixed isInt nout (f (j % nx) (j / nx)) = .inl m) →
      ∃ j m, i ≤ j ∧ j < i + k ∧ entry F name prefixed isInt nout (f (j % nx) (j / nx)) = .inl m ∧
        (funcToLut F name prefixed isInt nx nout f k i t).1 = m := by
  intro k
  induction k with
  | zero => rintro i t ⟨j, m, h1, h2, _⟩; omega
  | succ k ih =>
    rintro i t ⟨j, m, h1, h2, h3⟩
    unfold funcToLut
    cases e : entry F name prefixed isInt nout (f (i % nx) (i / nx)) with
    | inl m' => exact ⟨i, m', by omega, by omega, e, rfl⟩
    | inr v =>
      have : j ≠ i := by
        intro c
        rw [c, e] at h3
        exact absurd h3 (by simp)
      obtain ⟨j', m', g1, g2, g3, g4⟩ := ih (i + 1) (set t i v) ⟨j, m, by omega, by omega, h3⟩
      exact ⟨j', m', by omega, by omega, g3, g4⟩

theorem app_ne (a b : String) (h : b ≠ "") : a ++ b ≠ "" := by
  intro c
  exact h (String.append_eq_empty_iff.1 c).2

theorem entry_ne {name : String} {prefixed isInt : Bool} {nout : Nat} {r : Ret} (h : prefixed = true ∨ r ≠ .error "") {m : String}
    (e : entry F name prefixed isInt nout r = .inl m) : m ≠ "" := by
  unfold entry at e
  cases r with
  | error s =>
    dsimp only at e
    cases prefixed with
    | true =>
      rw [if_pos rfl] at e
      cases e
      intro c
      exact app_ne name _ (by decide) (String.append_eq_empty_iff.1 c).1
    | false =>
      rw [if_neg (by decide)] at e
      cases e
      rintro rfl
      rcases h with h | h
      · exact absurd h (by decide)
      · exact h rfl
  | int v =>
    dsimp only at e
    split at e
    · split at e
      · cases e; exact app_ne _ _ (by decide)
      · cases e
    · cases e; exact app_ne _ _ (by decide)
  | float b =>
    dsimp only at e
    split at e
    · cases e; exact app_ne _ _ (by decide)
    · cases e
  | other => cases e; exact app_ne _ _ (by decide)

theorem copyInts_ok {name : String} {nout : Nat} :
    ∀ (l : List Int) (i : Nat) (t : Nat → Nat), (∀ v ∈ l, 0 ≤ v ∧ v < nout) →
      ∃ t', copyInts name nout l i t = .ok t' ∧ (∀ j v, l[j]? = some v → (t' (i + j) : Int) = v) ∧ ∀ j, j < i → t' j = t j := by
  intro l
  induction l with
  | nil => exact fun i t _ => ⟨t, rfl, fun j v h => by simp at h, fun _ _ => rfl⟩
  | cons a l ih =>
    intro i t h
    have h0 := h a (by simp)
    obtain ⟨t', e, h1, h2⟩ := ih (i + 1) (set t i a.toNat) (fun v hv => h v (by simp [hv]))
    refine ⟨t', ?_, ?_, ?_⟩
    · unfold copyInts
      rw [if_neg (by omega)]
      exact e
    · intro j v hv
      cases j with
      | zero =>
        simp at hv
        rw [Nat.add_zero, h2 i (by omega)]
        unfold set
        rw [if_pos rfl]
        omega
      | succ j =>
        rw [show i + (j + 1) = i + 1 + j by omega]
        exact h1 j v (by simpa using hv)
    · intro j hj
      rw [h2 j (by omega)]
      unfold set
      rw [if_neg (by omega)]

theorem copyInts_bad {name : String} {nout : Nat} :
    ∀ (l : List Int) (i : Nat) (t : Nat → Nat), ¬ (∀ v ∈ l, 0 ≤ v ∧ v < nout) → ∃ m, copyInts name nout l i t = .err m := by
  intro l
  induction l with
  | nil => exact fun i t h => absurd (by simp) h
  | cons a l ih =>
    intro i t h
    unfold copyInts
    by_cases c : a < 0 ∨ a ≥ nout
    · rw [if_pos c]; exact ⟨_, rfl⟩
    · rw [if_neg c]
      refine ih _ _ (fun hl => h ?_)
      intro v hv
      rcases List.mem_cons.1 hv with rfl | hv
      · omega
      · exact hl v hv

theorem copyFloats_ok : ∀ (l : List Nat) (i : Nat) (t : Nat → Nat),
    (∀ j v, l[j]? = some v → copyFloats F l i t (i + j) = F.single v) ∧ ∀ j, j < i → copyFloats F l i t j = t j := by
  intro l
  induction l with
  | nil => exact fun i t => ⟨fun j v h => by simp at h, fun _ _ => rfl⟩
  | cons a l ih =>
    intro i t
    obtain ⟨h1, h2⟩ := ih (i + 1) (set t i (F.single a))
    refine ⟨?_, ?_⟩
    · intro j v hv
      unfold copyFloats
      cases j with
      | zero =>
        simp at hv
        show copyFloats F l (i + 1) (set t i (F.single a)) i = _
        rw [h2 i (by omega)]
        unfold set
        rw [if_pos rfl, hv]
      | succ j =>
        rw [show i + (j + 1) = i + 1 + j by omega]
        exact h1 j v (by simpa using hv)
    · intro j hj
      unfold copyFloats
      rw [h2 j (by omega)]
      unfold set
      rw [if_neg (by omega)]

theorem out_type {a : Args} {f fo : VFmt} (h : OutOk a f fo) : decide (fo.sampleType = stInteger) = !decide (FloatOut a) := by
  by_cases c : FloatOut a
  · rw [(h.float c).1, decide_eq_true c]; decide
  · rw [(h.int c).1, decide_eq_false c]; decide

/-- What the check accepts. -/
theorem check_iff (name : String) (a : Args) (n : Nat) :
    (checkArgs name a n = .ok () ↔ (∃ l, a.lut = some l ∧ a.lutf = none ∧ a.function = none ∧ ¬ FloatOut a ∧ l.length = n) ∨
      (∃ l, a.lut = none ∧ a.lutf = some l ∧ a.function = none ∧ FloatOut a ∧ l.length = n) ∨
      ∃ f, a.lut = none ∧ a.lutf = none ∧ a.function = some f) ∧
    (checkArgs name a n = .ok () ∨ ∃ m, checkArgs name a n = .err m) := by
  have e : checkArgs name a n = (let floatout := decide (FloatOut a)
    let given := numSet (elems a.lut) (elems a.lutf) a.function.isSome
    if given = 0 then .err (name ++ ": none of lut, lutf and function are set")
    else if given > 1 then .err (name ++ ": more than one of lut, lutf and function are set")
    else if elems a.lut ≥ 0 ∧ floatout then .err (name ++ ": lut set but float output specified")
    else if elems a.lutf ≥ 0 ∧ floatout = false then .err (name ++ ": lutf set but float output not specified")
    else if max (elems a.lut) (elems a.lutf) ≥ 0 ∧ max (elems a.lut) (elems a.lutf) ≠ n then .err (name ++ ": bad lut length")
    else .ok ()) := rfl
  rw [e]
  dsimp only
  refine ⟨?_, ?_⟩
  · cases e1 : a.lut <;> cases e2 : a.lutf <;> cases e3 : a.function <;> by_cases c : FloatOut a <;>
      simp [numSet, elems, c] <;> omega
  · split
    · exact Or.inr ⟨_, rfl⟩
    · split
      · exact Or.inr ⟨_, rfl⟩
      · split
        · exact Or.inr ⟨_, rfl⟩
        · split
          · exact Or.inr ⟨_, rfl⟩
          · split
            · exact Or.inr ⟨_, rfl⟩
            · exact Or.inl rfl

/-- The table has the values that are given. -/
theorem table_ok {name : String} {prefixed : Bool} {a : Args} {f fo : VFmt} (ho : OutOk a f fo) {nx n : Nat} {T : Nat → Nat}
    (h : Values F a fo nx n T) (mem : Nat → Nat) :
    checkArgs name a n = .ok () ∧ ∃ t, makeTable F name prefixed a fo nx n mem = .ok t ∧ ∀ i, i < n → t i = T i := by
  have ht := out_type ho
  rw [(check_iff name a n).1]
  unfold makeTable
  dsimp only
  rcases h with ⟨l, e1, e2, e3, c, hl, hv⟩ | ⟨l, e1, e2, e3, c, hl, hv⟩ | ⟨g, e1, e2, e3, c, hv⟩ | ⟨g, e1, e2, e3, c, hv⟩
  · refine ⟨Or.inl ⟨l, e1, e2, e3, c, hl⟩, ?_⟩
    rw [decide_eq_false c, Bool.not_false] at ht
    rw [e1, e3, ht]
    obtain ⟨t, e, h1, _⟩ := copyInts_ok (name := name) (nout := 2 ^ fo.bitsPerSample.toNat) l 0 mem (by
      intro v hm
      obtain ⟨i, hi, rfl⟩ := List.mem_iff_getElem.1 hm
      obtain ⟨g1, g2⟩ := hv i (by omega)
      rw [List.getElem?_eq_getElem hi] at g1
      injection g1 with g1
      rw [g1]
      omega)
    refine ⟨t, e, ?_⟩
    intro i hi
    have := h1 i _ (hv i hi).1
    rw [Nat.zero_add] at this
    omega
  · refine ⟨Or.inr (Or.inl ⟨l, e1, e2, e3, c, hl⟩), ?_⟩
    rw [decide_eq_true c, Bool.not_true] at ht
    rw [e2, e3, ht]
    refine ⟨_, rfl, ?_⟩
    intro i hi
    obtain ⟨b, g1, g2⟩ := hv i hi
    have := (copyFloats_ok F l 0 mem).1 i b g1
    rw [Nat.zero_add] at this
    rw [g2, ← this]
    rfl
  · refine ⟨Or.inr (Or.inr ⟨g, e1, e2, e3⟩), ?_⟩
    rw [decide_eq_false c, Bool.not_false] at ht
    rw [e3, ht]
    obtain ⟨t, e, h1, _⟩ := funcToLut_ok F (name := name) (prefixed := prefixed) (isInt := true) (nx := nx)
      (nout := 2 ^ fo.bitsPerSample.toNat) (f := g) (T := T) n 0 mem (by
        intro j _ hj
        obtain ⟨g1, g2⟩ := hv j (by omega)
        rw [g1]
        unfold entry
        dsimp only
        rw [if_pos rfl, if_neg (by omega)]
        rfl)
    refine ⟨t, ?_, fun i hi => h1 i (by omega) (by omega)⟩
    dsimp only
    rw [if_pos (c := true = true) rfl, e]
    rfl
  · refine ⟨Or.inr (Or.inr ⟨g, e1, e2, e3⟩), ?_⟩
    rw [decide_eq_true c, Bool.not_true] at ht
    rw [e3, ht]
    obtain ⟨t, e, h1, _⟩ := funcToLut_ok F (name := name) (prefixed := prefixed) (isInt := false) (nx := nx)
      (nout := 0) (f := g) (T := T) n 0 mem (by
        intro j _ hj
        obtain ⟨b, g1, g2⟩ := hv j (by omega)
        rw [g1, g2]
        rfl)
    refine ⟨t, ?_, fun i hi => h1 i (by omega) (by omega)⟩
    dsimp only
    rw [if_neg (c := false = true) (by decide), e]
    rfl

/-- Other arguments are refused. -/
theorem table_bad {name : String} {prefixed : Bool} {a : Args} {f fo : VFmt} (ho : OutOk a f fo) {nx n : Nat}
    (hs : prefixed = true ∨ Speaks a) (h : ¬ ∃ T, Values F a fo nx n T) (mem : Nat → Nat) :
    (∃ m, checkArgs name a n = .err m) ∨ (checkArgs name a n = .ok () ∧ ∃ m, makeTable F name prefixed a fo nx n mem = .err m) := by
  have ht := out_type ho
  rcases (check_iff name a n).2 with hc | hc
  · right
    refine ⟨hc, ?_⟩
    unfold makeTable
    dsimp only
    rcases (check_iff name a n).1.1 hc with ⟨l, e1, e2, e3, c, hl⟩ | ⟨l, e1, e2, e3, c, hl⟩ | ⟨g, e1, e2, e3⟩
    · rw [decide_eq_false c, Bool.not_false] at ht
      rw [e1, e3, ht]
      refine copyInts_bad l 0 mem (fun hv => h ⟨fun i => (l.getD i 0).toNat, Or.inl ⟨l, e1, e2, e3, c, hl, ?_⟩⟩)
      intro i hi
      have := hv _ (List.getElem_mem (show i < l.length by omega))
      have e : l.getD i 0 = l[i]'(by omega) := by
        rw [List.getD_eq_getElem?_getD, List.getElem?_eq_getElem (by omega)]
        rfl
      dsimp only
      rw [e, List.getElem?_eq_getElem (by omega)]
      rw [if_pos rfl] at this
      refine ⟨?_, by omega⟩
      rw [show (((l[i]'(by omega)).toNat : Nat) : Int) = l[i]'(by omega) by omega]
    · refine absurd ⟨fun i => F.single (l.getD i 0), Or.inr (Or.inl ⟨l, e1, e2, e3, c, hl, ?_⟩)⟩ h
      intro i hi
      refine ⟨l.getD i 0, ?_, rfl⟩
      rw [List.getD_eq_getElem?_getD, List.getElem?_eq_getElem (by omega)]
      rfl
    · rw [e3]
      dsimp only
      have fin : ∀ isInt nout, (∃ j m, 0 ≤ j ∧ j < 0 + n ∧ entry F name prefixed isInt nout (g (j % nx) (j / nx)) = .inl m) →
          (funcToLut F name prefixed isInt nx nout g n 0 mem).1 ≠ "" := by
        intro isInt nout hb
        obtain ⟨j, m, g1, g2, g3, g4⟩ := funcToLut_bad F n 0 mem hb
        rw [g4]
        exact entry_ne F (hs.imp_right (fun s => s g e3 _ _)) g3
      by_cases c : FloatOut a
      · rw [ht, decide_eq_true c, Bool.not_true]
        rw [if_neg (show ¬ (false = true) by decide)]
        have := fin false 0 (by
          refine Classical.byContradiction fun hn => h ⟨fun i => match g (i % nx) (i / nx) with | .float b => F.single b | _ => 0, ?_⟩
          refine Or.inr (Or.inr (Or.inr ⟨g, e1, e2, e3, c, ?_⟩))
          intro i hi
          cases e : g (i % nx) (i / nx) with
          | float b => exact ⟨b, rfl, by dsimp only; rw [e]⟩
          | error m => exact absurd ⟨i, _, by omega, by omega, by rw [e]; rfl⟩ hn
          | int v => exact absurd ⟨i, _, by omega, by omega, by rw [e]; rfl⟩ hn
          | other => exact absurd ⟨i, _, by omega, by omega, by rw [e]; rfl⟩ hn)
        rw [if_pos this]
        exact ⟨_, rfl⟩
      · rw [ht, decide_eq_false c, Bool.not_false]
        rw [if_pos (show true = true from rfl)]
        have := fin true (2 ^ fo.bitsPerSample.toNat) (by
          refine Classical.byContradiction fun hn => h ⟨fun i => match g (i % nx) (i / nx) with | .int v => v.toNat | _ => 0, ?_⟩
          refine Or.inr (Or.inr (Or.inl ⟨g, e1, e2, e3, c, ?_⟩))
          intro i hi
          cases e : g (i % nx) (i / nx) with
          | int v =>
            dsimp only
            rw [e]
            dsimp only
            by_cases hv : v < 0 ∨ v ≥ (2 ^ fo.bitsPerSample.toNat : Nat)
            · refine absurd ⟨i, name ++ ": function returned invalid value", by omega, by omega, ?_⟩ hn
              rw [e]
              unfold entry
              dsimp only
              rw [if_pos rfl, if_pos hv]
            · refine ⟨?_, by omega⟩
              rw [show ((v.toNat : Nat) : Int) = v by omega]
          | error m => exact absurd ⟨i, _, by omega, by omega, by rw [e]; rfl⟩ hn
          | float v => exact absurd ⟨i, _, by omega, by omega, by rw [e]; rfl⟩ hn
          | other => exact absurd ⟨i, _, by omega, by omega, by rw [e]; rfl⟩ hn)
        rw [if_pos this]
        exact ⟨_, rfl⟩
  · exact Or.inl hc

end VS.Lut
