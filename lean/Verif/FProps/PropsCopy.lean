import Verif.FProps.PropsRemove
import Verif.FProps.PropsSet

/-!
# C63: copying frame properties from another clip
-/

namespace VS.FProps
open VS VS.Map VS.Map.Spec VS.FProps.Spec

theorem after2_of {s : State} {a b : Nat} {la lb : Bool} {d : Dict} (hb : b < s.length) :
    (if lb then (after s a la d).set b none else after s a la d) = after2 s a b la lb d := by
  unfold after after2
  cases lb with
  | false => rfl
  | true =>
    simp only [if_true]
    rw [List.set_append_left _ _ (by rw [after_len]; exact hb)]

/-- C63: without names the new frame has the properties of the second clip's frame and no other ones. -/
theorem C63_copy_all (ops : List Op) (w : World) (s : State) (src1 src2 : Nat) (d e : Dict) (last1 last2 : Bool)
    (vn vf : Nat → Bool) (h : Leads ops w s) (hd : s[src1]? = some (some d)) (he : s[src2]? = some (some e))
    (hne : src1 ≠ src2 ∨ last1 = false) :
    Gives ops s (copyFramePropsFilter vn vf [] last1 last2 w src1 src2) (after2 s src1 src2 last1 last2 ⟨false, e.get⟩) := by
  have hl1 := (List.getElem?_eq_some_iff.mp hd).1
  have hl2 := (List.getElem?_eq_some_iff.mp he).1
  obtain ⟨w1, h1, e1⟩ := copyFrame_ext (Ext.refl h) hd
  obtain ⟨w2, h2, e2⟩ := e1.step (op := .clear s.length) (s' := s ++ [some Dict.empty]) (o := .unit) (by
    simp only [Spec.step, look_of (get_last s _), Res.bind_ok, upd_last])
  have hmerge : Dict.empty.merge e = ⟨false, e.get⟩ := by
    unfold Dict.merge Dict.empty
    congr 1
    funext k
    cases e.get k <;> rfl
  obtain ⟨w3, h3, e3⟩ := e2.step (op := .copy src2 s.length) (s' := s ++ [some ⟨false, e.get⟩]) (o := .unit) (by
    simp only [Spec.step, if_neg (show src2 ≠ s.length by omega), look_of (get_last s _), look_of (get_other he),
      Res.bind_ok, upd_last, hmerge])
  obtain ⟨w4, h4, e4⟩ := freeFrame_ext last1 e3 (get_other hd)
  have hs4 : (if last1 then (s ++ [some (⟨false, e.get⟩ : Dict)]).set src1 none else s ++ [some (⟨false, e.get⟩ : Dict)]) =
      after s src1 last1 ⟨false, e.get⟩ := by
    unfold after
    cases last1 with
    | false => rfl
    | true => simp only [if_true]; rw [List.set_append_left _ _ hl1]
  rw [hs4] at e4
  obtain ⟨w5, h5, e5⟩ := freeFrame_ext last2 e4 (after_other he hne)
  rw [after2_of hl2] at e5
  refine e5.gives ?_
  simp only [copyFramePropsFilter, if_true, copyFramePropsAll, h1, retUnit_inv h2, retUnit_inv h3, h4, h5, Res.bind_ok]

example : ∃ w s d e, Leads [.create, .setInt 0 "_Field" 1 0, .create, .setFloat 1 "x" 5 0] w s ∧
    s[0]? = some (some d) ∧ s[1]? = some (some e) := ⟨_, _, _, _, ⟨_, rfl, rfl⟩, rfl, rfl⟩

/-! ## Single names -/

/-- Where the loop over the names stands: the new frame has the properties `c`. -/
structure At (ops : List Op) (s : State) (src1 src2 : Nat) (last1 : Bool) (e : Dict) (w : World) (c : Dict) : Prop where
  ext : Ext ops w (after s src1 last1 c)
  src : (after s src1 last1 c)[src2]? = some (some e)

theorem At.next {ops : List Op} {s : State} {src1 src2 : Nat} {last1 : Bool} {e : Dict} {w w' : World} {c c' : Dict}
    (h : At ops s src1 src2 last1 e w c) (hl : src2 < s.length) (h' : Ext ops w' (after s src1 last1 c')) :
    At ops s src1 src2 last1 e w' c' := by
  refine ⟨h', ?_⟩
  have := h.src
  unfold after at this ⊢
  rw [List.getElem?_append_left (by rw [after_len]; exact hl)] at this ⊢
  exact this

/-- A call that sets one value of the new frame. -/
theorem At.call {ops : List Op} {s : State} {src1 src2 : Nat} {last1 : Bool} {e : Dict} {w : World} {c c' : Dict} {o : Out}
    {op : Op} (h : At ops s src1 src2 last1 e w c) (hl : src2 < s.length)
    (hs : Spec.step (after s src1 last1 c) op = .ok (after s src1 last1 c', o)) :
    ∃ w', Map.step w op = .ok (w', o) ∧ At ops s src1 src2 last1 e w' c' := by
  obtain ⟨w', h1, e1⟩ := h.ext.step hs
  exact ⟨w', h1, h.next hl e1⟩

/-- A call that reads. -/
theorem At.read {ops : List Op} {s : State} {src1 src2 : Nat} {last1 : Bool} {e : Dict} {w : World} {c : Dict} {o : Out}
    {op : Op} (h : At ops s src1 src2 last1 e w c)
    (hs : Spec.step (after s src1 last1 c) op = .ok (after s src1 last1 c, o)) :
    ∃ w', Map.step w op = .ok (w', o) ∧ Ext ops w' (after s src1 last1 c) := h.ext.step hs

/-- Setting one more reference or string. -/
theorem append_val (c : Dict) (k : Key) (hk : KeyOk k = true) (t : PType) (l : List Val) (v : Val) (i : Nat)
    (hv : l[i]? = some v) :
    setVal (c.put k (if i = 0 then none else some (t, l.take i))) k v t 1 = some (c.put k (some (t, l.take (i + 1)))) := by
  have hlt := (List.getElem?_eq_some_iff.mp hv).1
  have htake : l.take (i + 1) = l.take i ++ [v] := by
    rw [List.take_add_one, hv]; rfl
  by_cases hi : i = 0
  · subst hi
    simp [setVal, hk, put_same, put_put, htake]
  · simp [setVal, hk, put_same, put_put, htake, hi]

theorem forN_ext {ops : List Op} {s : State} {src1 src2 : Nat} {last1 : Bool} {e : Dict} {c : Dict} {k : Key} {t : PType}
    {l : List Val} (f : World → Int → Res World)
    (hf : ∀ (w : World) (i : Nat) (v : Val), l[i]? = some v →
      At ops s src1 src2 last1 e w (c.put k (if i = 0 then none else some (t, l.take i))) →
      ∃ w', f w i = .ok w' ∧ At ops s src1 src2 last1 e w' (c.put k (some (t, l.take (i + 1))))) :
    ∀ (n : Nat) (w : World) (i : Nat), i + n = l.length → 0 < n →
      At ops s src1 src2 last1 e w (c.put k (if i = 0 then none else some (t, l.take i))) →
      ∃ w', forN f n w i = .ok w' ∧ At ops s src1 src2 last1 e w' (c.put k (some (t, l))) := by
  intro n
  induction n with
  | zero => intro w i _ h0; omega
  | succ n ih =>
    intro w i hi _ h
    have hil : i < l.length := by omega
    obtain ⟨w1, h1, a1⟩ := hf w i l[i] (List.getElem?_eq_getElem hil) h
    by_cases hn : n = 0
    · subst hn
      refine ⟨w1, by simp only [forN, h1, Res.bind_ok], ?_⟩
      rw [List.take_of_length_le (by omega)] at a1
      exact a1
    · obtain ⟨w2, h2, a2⟩ := ih w1 (i + 1) (by omega) (by omega) (by rw [if_neg (by omega)]; exact a1)
      exact ⟨w2, by simp only [forN, h1, Res.bind_ok, h2], a2⟩

section
variable {ops : List Op} {s : State} {src1 src2 : Nat} {last1 : Bool} {e : Dict} {w : World} {c : Dict} {k : Key}

theorem readAt_ok {t : PType} {l : List Val} {v : Val} {i : Nat} (he : e.err = false) (hg : e.get k = some (t, l))
    (hv : l[i]? = some v) : readAt e k i t = .inr v := by
  simp [readAt, he, hg, hv]

theorem readAt_other {t t' : PType} {l : List Val} {v : Val} {i : Nat} (he : e.err = false) (hg : e.get k = some (t, l))
    (hv : l[i]? = some v) (ht : t ≠ t') : readAt e k i t' = .inl 2 := by
  simp [readAt, he, hg, hv, ht]

theorem copyData_ext (hl : src2 < s.length) (hk : KeyOk k = true) (he : e.err = false) {l : List Val}
    (hg : e.get k = some (.data, l)) (i : Nat) (v : Val) (hv : l[i]? = some v)
    (h : At ops s src1 src2 last1 e w (c.put k (if i = 0 then none else some (.data, l.take i)))) :
    ∃ w', copyData k s.length src2 w i = .ok w' ∧ At ops s src1 src2 last1 e w' (c.put k (some (.data, l.take (i + 1)))) := by
  have hfit := dict_fits h.ext.sim h.src hg v (List.mem_of_getElem? hv)
  cases v with
  | int _ | float _ | obj _ => simp [Spec.Fits] at hfit
  | data hint b =>
    obtain ⟨w1, h1, e1⟩ := h.read (op := .getData src2 k i false) (o := .data (some (hint, b)) 0) (by
      simp only [Spec.step, reading, look_of h.src, readData, readAt_ok he hg hv, Res.bind_ok])
    obtain ⟨rfl, a, ha, ho⟩ := retRead_inv h1
    injection ho with ho1 ho2
    obtain ⟨w2, h2, e2⟩ := setData_ext (hint := hint) (b := b) h.ext hk (.inr rfl) (append_val c k hk .data l _ i hv)
    refine ⟨w2, ?_, h.next hl e2⟩
    simp only [copyData, ha, Res.bind_ok, ho1, h2]

theorem copyFunction_ext (hl : src2 < s.length) (hk : KeyOk k = true) (he : e.err = false) {l : List Val}
    (hg : e.get k = some (.function, l)) (i : Nat) (v : Val) (hv : l[i]? = some v) (hr : ∃ p, v = .obj (some p))
    (h : At ops s src1 src2 last1 e w (c.put k (if i = 0 then none else some (.function, l.take i)))) :
    ∃ w', copyFunction k s.length src2 w i = .ok w' ∧
      At ops s src1 src2 last1 e w' (c.put k (some (.function, l.take (i + 1)))) := by
  obtain ⟨p, rfl⟩ := hr
  obtain ⟨w1, h1, e1⟩ := h.read (op := .getFunction src2 k i false) (o := .obj (some p) 0) (by
    simp only [Spec.step, reading, look_of h.src, readFunction, readAt_ok he hg hv, refOut, Res.bind_ok])
  obtain ⟨rfl, a, ha, ho⟩ := retRead_inv h1
  injection ho with ho1 ho2
  obtain ⟨w2, h2, e2⟩ := h.call hl (op := .setFunction s.length k (some p) 1) (o := .code 0)
    (c' := c.put k (some (.function, l.take (i + 1)))) (by
      simp only [Spec.step, setter]
      rw [if_neg (by omega), hk]
      simp only [Bool.true_eq_false, if_false, look_of (after_get s src1 last1 _), Res.bind_ok,
        append_val c k hk .function l _ i hv, after_upd])
  refine ⟨w2, ?_, e2⟩
  simp only [copyFunction, ha, Res.bind_ok, ho1, retCode_inv h2]

theorem copyNode_ext (vn : Nat → Bool) (hl : src2 < s.length) (hk : KeyOk k = true) (he : e.err = false) {l : List Val}
    {t : PType} (ht : t = .videoNode ∨ t = .audioNode) (hg : e.get k = some (t, l)) (i : Nat) (v : Val) (hv : l[i]? = some v)
    (hr : ∃ p, v = .obj (some p) ∧ vn p = decide (t = .videoNode))
    (h : At ops s src1 src2 last1 e w (c.put k (if i = 0 then none else some (t, l.take i)))) :
    ∃ w', copyNode vn k s.length src2 w i = .ok w' ∧
      At ops s src1 src2 last1 e w' (c.put k (some (t, l.take (i + 1)))) := by
  obtain ⟨p, rfl, hp⟩ := hr
  obtain ⟨w1, h1, e1⟩ := h.read (op := .getNode src2 k i false) (o := .obj (some p) 0) (by
    simp only [Spec.step, reading, look_of h.src, readRef]
    rcases ht with rfl | rfl
    · simp only [readAt_ok he hg hv, refOut, Res.bind_ok]
    · simp only [readAt_other he hg hv (show PType.audioNode ≠ .videoNode by decide), readAt_ok he hg hv, refOut, Res.bind_ok])
  obtain ⟨rfl, a, ha, ho⟩ := retRead_inv h1
  injection ho with ho1 ho2
  obtain ⟨w2, h2, e2⟩ := h.call hl (op := .setNode s.length k (some (p, vn p)) 1) (o := .code 0)
    (c' := c.put k (some (t, l.take (i + 1)))) (by
      have hty : (if (refArg (some (p, vn p))).2 = true then PType.videoNode else .audioNode) = t := by
        rcases ht with rfl | rfl <;> simp [refArg, hp]
      simp only [Spec.step, setter, hty]
      rw [if_neg (by omega), hk]
      simp only [Bool.true_eq_false, if_false, look_of (after_get s src1 last1 _), Res.bind_ok, refArg,
        append_val c k hk t l _ i hv, after_upd])
  refine ⟨w2, ?_, e2⟩
  simp only [copyNode, ha, Res.bind_ok, ho1, Option.map_some, retCode_inv h2]

theorem copyFrameRef_ext (vf : Nat → Bool) (hl : src2 < s.length) (hk : KeyOk k = true) (he : e.err = false) {l : List Val}
    {t : PType} (ht : t = .videoFrame ∨ t = .audioFrame) (hg : e.get k = some (t, l)) (i : Nat) (v : Val)
    (hv : l[i]? = some v) (hr : ∃ p, v = .obj (some p) ∧ vf p = decide (t = .videoFrame))
    (h : At ops s src1 src2 last1 e w (c.put k (if i = 0 then none else some (t, l.take i)))) :
    ∃ w', copyFrameRef vf k s.length src2 w i = .ok w' ∧
      At ops s src1 src2 last1 e w' (c.put k (some (t, l.take (i + 1)))) := by
  obtain ⟨p, rfl, hp⟩ := hr
  obtain ⟨w1, h1, e1⟩ := h.read (op := .getFrame src2 k i false) (o := .obj (some p) 0) (by
    simp only [Spec.step, reading, look_of h.src, readRef]
    rcases ht with rfl | rfl
    · simp only [readAt_ok he hg hv, refOut, Res.bind_ok]
    · simp only [readAt_other he hg hv (show PType.audioFrame ≠ .videoFrame by decide), readAt_ok he hg hv, refOut,
        Res.bind_ok])
  obtain ⟨rfl, a, ha, ho⟩ := retRead_inv h1
  injection ho with ho1 ho2
  obtain ⟨w2, h2, e2⟩ := h.call hl (op := .setFrame s.length k (some (p, vf p)) 1) (o := .code 0)
    (c' := c.put k (some (t, l.take (i + 1)))) (by
      have hty : (if (refArg (some (p, vf p))).2 = true then PType.videoFrame else .audioFrame) = t := by
        rcases ht with rfl | rfl <;> simp [refArg, hp]
      simp only [Spec.step, setter, hty]
      rw [if_neg (by omega), hk]
      simp only [Bool.true_eq_false, if_false, look_of (after_get s src1 last1 _), Res.bind_ok, refArg,
        append_val c k hk t l _ i hv, after_upd])
  refine ⟨w2, ?_, e2⟩
  simp only [copyFrameRef, ha, Res.bind_ok, ho1, Option.map_some, retCode_inv h2]

theorem ints_map {l : List Val} (h : ∀ v ∈ l, Spec.Fits .int v) : (intsOf l).map Val.int = l := by
  induction l with
  | nil => rfl
  | cons v t ih =>
    have h1 := h v (by simp)
    have h2 := ih (fun v hv => h v (by simp [hv]))
    unfold intsOf at h2 ⊢
    cases v <;> simp_all [Spec.Fits]

theorem floats_map {l : List Val} (h : ∀ v ∈ l, Spec.Fits .float v) : (floatsOf l).map Val.float = l := by
  induction l with
  | nil => rfl
  | cons v t ih =>
    have h1 := h v (by simp)
    have h2 := ih (fun v hv => h v (by simp [hv]))
    unfold floatsOf at h2 ⊢
    cases v <;> simp_all [Spec.Fits]

theorem copyValues_ext (vn vf : Nat → Bool) (hl : src2 < s.length) (hk : KeyOk k = true) (hcr : k ≠ "_ColorRange")
    (he : e.err = false) {t : PType} {l : List Val} (hne : l ≠ []) (hg : e.get k = some (t, l)) (hr : Refs vn vf (t, l))
    (h : At ops s src1 src2 last1 e w (c.put k none)) :
    ∃ w', copyValues vn vf k s.length src2 w l.length t = .ok w' ∧
      At ops s src1 src2 last1 e w' (c.put k (some (t, l))) := by
  have hpos : 0 < l.length := List.length_pos_iff.mpr hne
  have hfits := dict_fits h.ext.sim h.src hg
  have h0 : At ops s src1 src2 last1 e w (c.put k (if 0 = 0 then none else some (t, l.take 0))) := h
  have hv0 : l[0]? = some l[0] := List.getElem?_eq_getElem hpos
  have hcan : canon k = k := by simp [canon, hcr]
  cases t with
  | unset => exact absurd hr (by simp [Refs])
  | int =>
    obtain ⟨w1, h1, -⟩ := h.read (op := .getIntArray src2 k false) (o := .array (some l) 0) (by
      simp only [Spec.step, reading, look_of h.src, readArray, hcan, Res.bind_ok]
      rw [show (0 : Int) = ((0 : Nat) : Int) from rfl, readAt_ok he hg hv0, hg]
      simp [rangeArray, hcr])
    obtain ⟨rfl, a, ha, ho⟩ := retRead_inv h1
    injection ho with ho1 ho2
    obtain ⟨w2, h2, e2⟩ := h.call hl (op := .setIntArray s.length k (intsOf l) l.length) (o := .code 0)
      (c' := c.put k (some (.int, l))) (by
        simp only [Spec.step]
        rw [if_neg (by simp [hk]), if_neg (by simp [intsOf])]
        have htr : ∀ i, Map.Spec.trans k i = i := fun i => by simp [Map.Spec.trans, hcr]
        simp only [setArray, hcan, look_of (after_get s src1 last1 _), Res.bind_ok, after_upd, htr, put_put, Int.toNat_natCast]
        rw [List.take_of_length_le (by simp [intsOf]), ints_map hfits])
    refine ⟨w2, ?_, e2⟩
    simp only [copyValues, ha, Res.bind_ok, ho1, Option.getD_some, retCode_inv h2]
  | float =>
    obtain ⟨w1, h1, -⟩ := h.read (op := .getFloatArray src2 k false) (o := .array (some l) 0) (by
      simp only [Spec.step, reading, look_of h.src, readArray, Res.bind_ok]
      rw [show (0 : Int) = ((0 : Nat) : Int) from rfl, readAt_ok he hg hv0, hg]
      rfl)
    obtain ⟨rfl, a, ha, ho⟩ := retRead_inv h1
    injection ho with ho1 ho2
    obtain ⟨w2, h2, e2⟩ := h.call hl (op := .setFloatArray s.length k (floatsOf l) l.length) (o := .code 0)
      (c' := c.put k (some (.float, l))) (by
        simp only [Spec.step]
        rw [if_neg (by simp [hk]), if_neg (by simp [floatsOf])]
        simp only [setArray, look_of (after_get s src1 last1 _), Res.bind_ok, after_upd, put_put, Int.toNat_natCast]
        rw [List.take_of_length_le (by simp [floatsOf]), floats_map hfits])
    refine ⟨w2, ?_, e2⟩
    simp only [copyValues, ha, Res.bind_ok, ho1, Option.getD_some, retCode_inv h2]
  | data =>
    exact forN_ext (copyData k s.length src2) (fun w i v hv h => copyData_ext hl hk he hg i v hv h) _ w 0
      (by simp) (by simpa using hpos) h0
  | function =>
    exact forN_ext (copyFunction k s.length src2)
      (fun w i v hv h => copyFunction_ext hl hk he hg i v hv (hr v (List.mem_of_getElem? hv)) h) _ w 0
      (by simp) (by simpa using hpos) h0
  | videoNode =>
    exact forN_ext (copyNode vn k s.length src2)
      (fun w i v hv h => copyNode_ext vn hl hk he (.inl rfl) hg i v hv
        (by simpa using hr v (List.mem_of_getElem? hv)) h) _ w 0
      (by simp) (by simpa using hpos) h0
  | audioNode =>
    exact forN_ext (copyNode vn k s.length src2)
      (fun w i v hv h => copyNode_ext vn hl hk he (.inr rfl) hg i v hv
        (by simpa using hr v (List.mem_of_getElem? hv)) h) _ w 0
      (by simp) (by simpa using hpos) h0
  | videoFrame =>
    exact forN_ext (copyFrameRef vf k s.length src2)
      (fun w i v hv h => copyFrameRef_ext vf hl hk he (.inl rfl) hg i v hv
        (by simpa using hr v (List.mem_of_getElem? hv)) h) _ w 0
      (by simp) (by simpa using hpos) h0
  | audioFrame =>
    exact forN_ext (copyFrameRef vf k s.length src2)
      (fun w i v hv h => copyFrameRef_ext vf hl hk he (.inr rfl) hg i v hv
        (by simpa using hr v (List.mem_of_getElem? hv)) h) _ w 0
      (by simp) (by simpa using hpos) h0

theorem copyProp_ext (vn vf : Nat → Bool) (hl : src2 < s.length) (hk : KeyOk k = true) (hcr : k ≠ "_ColorRange")
    (he : e.err = false) (hr : ∀ x, e.get k = some x → Refs vn vf x) (h : At ops s src1 src2 last1 e w c) :
    ∃ w', copyProp vn vf s.length src2 w k = .ok w' ∧ At ops s src1 src2 last1 e w' (c.put k (e.get k)) := by
  have hcan : canon k = k := by simp [canon, hcr]
  obtain ⟨w1, b, -, h1, e1⟩ := delete_ext h.ext hcr
  have a1 := h.next hl e1
  have hnum : ∃ w', Map.step w1 (.numElements src2 k) = .ok (w', .code (match e.get k with | some (_, l) => l.length | none => -1)) ∧
      Ext ops w' _ := a1.read (by
        simp only [Spec.step, reading, look_of a1.src, Res.bind_ok, hcan]; cases e.get k <;> rfl)
  obtain ⟨w2, h2, -⟩ := hnum
  obtain ⟨rfl, n, hn, ho⟩ := retRead_inv h2
  injection ho with ho
  have hty : ∃ w', Map.step w2 (.getType src2 k) = .ok (w', .type (match e.get k with | some (t, _) => t | none => .unset)) ∧
      Ext ops w' _ := a1.read (by
        simp only [Spec.step, reading, look_of a1.src, Res.bind_ok, hcan]; cases e.get k <;> rfl)
  obtain ⟨w3, h3, -⟩ := hty
  obtain ⟨rfl, t, ht, ho'⟩ := retRead_inv h3
  injection ho' with ho'
  simp only [copyProp, h1, Res.bind_ok, hn, ht]
  cases hg : e.get k with
  | none =>
    rw [hg] at ho
    simp only at ho
    subst ho
    exact ⟨w3, by simp, a1⟩
  | some x =>
    obtain ⟨ty, l⟩ := x
    rw [hg] at ho ho'
    simp only at ho ho'
    subst ho ho'
    have hrx := hr _ hg
    by_cases hll : l = []
    · subst hll
      have hcode : (if PType.code t = 1 then canon k else k) = k := by split <;> simp [hcan]
      have htyp : typeOf t.code = some t := by cases t <;> simp_all [Refs, typeOf, PType.code]
      obtain ⟨w4, h4, a4⟩ := a1.call hl (op := .setEmpty s.length k t.code) (o := .code 0)
        (c' := c.put k (some (t, []))) (by
          simp only [Spec.step, setEmpty]
          rw [if_neg (by simp [hk])]
          simp only [look_of (after_get s src1 last1 _), Res.bind_ok, hcode, put_same, htyp, after_upd, put_put])
      refine ⟨w4, ?_, a4⟩
      simp only [List.length_nil, Int.natCast_zero, if_true, retCode_inv h4, Res.bind_ok]
    · have hpos : 0 < l.length := List.length_pos_iff.mpr hll
      rw [if_neg (by omega), if_pos (by omega)]
      exact copyValues_ext vn vf hl hk hcr he hll hg hrx a1

end

theorem copyProps_ext {ops : List Op} {s : State} {src1 src2 : Nat} {last1 : Bool} {e : Dict} (vn vf : Nat → Bool)
    (hl : src2 < s.length) (he : e.err = false) (ks : List Key) : ∀ (w : World) (c : Dict), (∀ k ∈ ks, KeyOk k = true) →
    "_ColorRange" ∉ ks → (∀ k ∈ ks, ∀ x, e.get k = some x → Refs vn vf x) → At ops s src1 src2 last1 e w c →
    ∃ w', copyProps vn vf s.length src2 w ks = .ok w' ∧ At ops s src1 src2 last1 e w' (pick ks c e) := by
  induction ks with
  | nil =>
    intro w c _ _ _ h
    exact ⟨w, rfl, by simpa [pick] using h⟩
  | cons k t ih =>
    intro w c hk hcr hr h
    obtain ⟨w1, h1, a1⟩ := copyProp_ext vn vf hl (hk k (by simp)) (fun e => hcr (by simp [e])) he (hr k (by simp)) h
    obtain ⟨w2, h2, a2⟩ := ih w1 _ (fun x hx => hk x (by simp [hx])) (fun hx => hcr (by simp [hx]))
      (fun x hx => hr x (by simp [hx])) a1
    refine ⟨w2, by simp only [copyProps, h1, Res.bind_ok, h2], ?_⟩
    have : pick t (c.put k (e.get k)) e = pick (k :: t) c e := by
      unfold pick Dict.put
      congr 1
      funext x
      by_cases hx : x ∈ t
      · simp [hx]
      · by_cases hxk : x = k
        · subst hxk; simp [hx]
        · simp [hx, hxk]
    rw [← this]; exact a2

/-- C63: with names, the properties of these names are exactly those of the second clip's frame, absent ones included, and
all others keep their values. Not for `_ColorRange`, see below. -/
theorem C63_copy_named (ops : List Op) (w : World) (s : State) (src1 src2 : Nat) (d e : Dict) (last1 last2 : Bool)
    (vn vf : Nat → Bool) (ks : List Key) (h : Leads ops w s) (hd : s[src1]? = some (some d))
    (he : s[src2]? = some (some e)) (hne : src1 ≠ src2 ∨ last1 = false) (hks : ks ≠ []) (hok : ∀ k ∈ ks, KeyOk k = true)
    (hcr : "_ColorRange" ∉ ks) (herr : e.err = false) (hr : ∀ k ∈ ks, ∀ x, e.get k = some x → Refs vn vf x) :
    Gives ops s (copyFramePropsFilter vn vf ks last1 last2 w src1 src2)
      (after2 s src1 src2 last1 last2 (pick ks d e)) := by
  have hl2 := (List.getElem?_eq_some_iff.mp he).1
  obtain ⟨w1, w2, h1, h2, e2⟩ := start_ext last1 h hd
  obtain ⟨w3, h3, a3⟩ := copyProps_ext vn vf hl2 herr ks w2 d hok hcr hr ⟨e2, after_other he hne⟩
  obtain ⟨w4, h4, e4⟩ := freeFrame_ext last2 a3.ext a3.src
  rw [after2_of hl2] at e4
  refine e4.gives ?_
  have hmap : ks.map cstr = ks := by
    exact (List.map_congr_left (g := id) (fun k hk => cstr_ok (hok k hk))).trans (List.map_id _)
  simp only [copyFramePropsFilter, if_neg hks, hmap, copyFrameProps, h1, h2, h3, h4, Res.bind_ok]

example : ∃ w s d e, Leads [.create, .setInt 0 "_Field" 1 0, .create, .setFrame 1 "x" (some (7, true)) 0] w s ∧
    s[0]? = some (some d) ∧ s[1]? = some (some e) ∧ e.err = false ∧
    (∀ k ∈ ["x", "_Field"], ∀ x, e.get k = some x → Refs (fun _ => true) (fun _ => true) x) ∧
    (pick ["x", "_Field"] d e).get "_Field" = none := by
  refine ⟨_, _, _, _, ⟨_, rfl, rfl⟩, rfl, rfl, rfl, ?_, rfl⟩
  intro k hk x hx
  simp only [List.mem_cons, List.not_mem_nil, or_false] at hk
  rcases hk with rfl | rfl
  · have : some (PType.videoFrame, [Val.obj (some 7)]) = some x := hx
    injection this with this
    subst this
    intro v hv
    simp only [List.mem_cons, List.not_mem_nil, or_false] at hv
    exact ⟨7, hv, rfl⟩
  · have : none = some x := hx
    cases this

/-- C63: copying `_ColorRange` with several values changes them. -/
theorem C63_colorRange_refuted : ∃ w s w', Leads [.create, .create, .setIntArray 1 "_ColorRange" [0, 1] 2] w s ∧
    copyFramePropsFilter (fun _ => true) (fun _ => true) ["_ColorRange"] false false w 0 1 = .ok (w', 2) ∧
    mapGetInt w' 1 "_ColorRange" 0 true = .ok (0, 0) ∧ mapGetInt w' 2 "_ColorRange" 0 true = .ok (1, 0) :=
  ⟨_, _, _, ⟨_, rfl, rfl⟩, rfl, rfl, rfl⟩

/-- C63: copying `_ColorRange` when the source frame has a string named `_Range` ends the process. -/
theorem C63_colorRange_fatal_refuted : ∃ w s m, Leads [.create, .create, .setData 1 "_Range" [65, 0] 1 0 0] w s ∧
    copyFramePropsFilter (fun _ => true) (fun _ => true) ["_ColorRange"] false false w 0 1 = .fatal m :=
  ⟨_, _, _, ⟨_, rfl, rfl⟩, rfl⟩

end VS.FProps
