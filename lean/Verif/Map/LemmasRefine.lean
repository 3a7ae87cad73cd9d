import Verif.Map.LemmasOps

/-!
# The map model simulates the dictionary specification
-/

namespace VS.Map
open VS

/-! ## Handles -/

theorem create_ok {w : World} (hw : Good w) :
    Good (mapCreate w).1 ∧ (mapCreate w).2 = w.maps.length ∧
      (mapCreate w).1.maps.length = w.maps.length + 1 ∧
      dictOf (mapCreate w).1 w.maps.length = some Spec.Dict.empty ∧
      ∀ m, m ≠ w.maps.length → dictOf (mapCreate w).1 m = dictOf w m := by
  have h1 := newSto_wf (st := ⟨1, [], false⟩) (ea' := none0) hw rfl List.Pairwise.nil (by simp)
    (by intro a; rfl)
  have hnew : (newSto w ⟨1, [], false⟩).stos.get w.stos.length = some ⟨1, [], false⟩ :=
    Heap.get_alloc_self _ _
  have hw2 : Good (mapCreate w).1 := by
    refine ⟨?_, ?_, h1.1.sorted, h1.1.entLive, h1.1.arrRc, h1.1.arrOk, h1.1.eaLive, by simp [none0]⟩
    · intro m s hm
      by_cases hb : m = w.maps.length
      · subst hb
        have : (mapCreate w).1.maps.get w.maps.length = some w.stos.length := Heap.get_alloc_self _ _
        rw [this] at hm; simp at hm; subst hm
        exact ⟨_, hnew⟩
      · have : (mapCreate w).1.maps.get m = w.maps.get m := Heap.get_alloc_ne hb
        rw [this] at hm
        exact h1.1.mapLive m s hm
    · intro s st hst
      have h2 := h1.1.stoRc s st hst
      have e : mrefs (mapCreate w).1 s = mrefs w s + if w.stos.length = s then 1 else 0 := by
        simp [mrefs, mapCreate, newSto, Heap.sumOver_alloc]
      have e2 : mrefs (newSto w ⟨1, [], false⟩) s = mrefs w s := rfl
      rw [e2] at h2
      rw [e]
      simp only [none0] at h2 ⊢
      omega
  have hx : Ext w (mapCreate w).1 none := ⟨h1.2.alen, h1.2.slen, h1.2.arr, h1.2.sto⟩
  refine ⟨hw2, rfl, by simp [mapCreate, newSto], ?_, ?_⟩
  · exact dictOf_of (w := (mapCreate w).1) (Heap.get_alloc_self _ _) hnew
  · intro m hb
    exact dictOf_ext hx hw hw2 (Heap.get_alloc_ne hb) (by simp)

theorem clone_ok {w : World} {src : Nat} {d : Spec.Dict} (hw : Good w)
    (hd : dictOf w src = some d) :
    ∃ w', mapClone w src = .ok (w', w.maps.length) ∧ Good w' ∧
      w'.maps.length = w.maps.length + 1 ∧ dictOf w' w.maps.length = some d ∧
      ∀ m, m ≠ w.maps.length → dictOf w' m = dictOf w m := by
  obtain ⟨s, st, hm, hs, rfl⟩ := dictOf_some hd
  obtain ⟨e1, hw1, x1⟩ := addRefSto_wf hw hs
  have hs1 : (putS w s { st with rc := st.rc + 1 }).stos.get s = some { st with rc := st.rc + 1 } :=
    Heap.get_put_self _ (Heap.get_lt hs)
  refine ⟨{ putS w s { st with rc := st.rc + 1 } with
    maps := w.maps.alloc s }, ?_, ?_, ?_, ?_, ?_⟩
  · simp only [mapClone, mapSto, hm, e1, Res.bind_ok]; rfl
  · refine ⟨?_, ?_, hw1.sorted, hw1.entLive, hw1.arrRc, hw1.arrOk, hw1.eaLive, by simp [none0]⟩
    · intro m t hmt
      simp only at hmt
      by_cases hb : m = w.maps.length
      · subst hb
        rw [Heap.get_alloc_self] at hmt; simp at hmt; subst hmt
        exact ⟨_, hs1⟩
      · rw [Heap.get_alloc_ne hb] at hmt
        exact hw1.mapLive m t hmt
    · intro t stt hst
      have h2 := hw1.stoRc t stt hst
      have e : mrefs { putS w s { st with rc := st.rc + 1 } with maps := w.maps.alloc s } t
          = mrefs w t + if s = t then 1 else 0 := by
        simp [mrefs, Heap.sumOver_alloc]
      have e2 : mrefs (putS w s { st with rc := st.rc + 1 }) t = mrefs w t := rfl
      rw [e2] at h2
      rw [e]
      simp only [none0] at h2 ⊢
      omega
  · simp
  · have : dictOf { putS w s { st with rc := st.rc + 1 } with maps := w.maps.alloc s } w.maps.length
        = some (dictSto _ { st with rc := st.rc + 1 }) :=
      dictOf_of (Heap.get_alloc_self _ _) hs1
    rw [this]
    rfl
  · intro m hb
    have h1 : dictOf { putS w s { st with rc := st.rc + 1 } with maps := w.maps.alloc s } m
        = dictOf (putS w s { st with rc := st.rc + 1 }) m := by
      unfold dictOf
      simp only
      rw [Heap.get_alloc_ne hb]
      rfl
    rw [h1]
    exact dictOf_ext x1 hw hw1 rfl (by simp)

theorem free_core {w : World} {m s : Nat} (hw : Good w) (hm : w.maps.get m = some s) :
    ∃ w', releaseSto (putM w m none) s = .ok w' ∧ Good w' ∧ Ext w w' none ∧
      w'.maps = w.maps.put m none := by
  have hml := Heap.get_lt hm
  have h1 := putM_wf (w := w) (m := m) (v := none) hw
    (es' := fun t => none0 t + if s = t then 1 else 0) hml (by simp) (by
      intro t
      have := mrefs_put (w := w) (v := none) hml t
      rw [hm] at this
      simp [none0] at this ⊢
      omega) (by
      intro t ht
      simp only [none0, Nat.zero_add] at ht
      have ht := eq_of_ite_pos ht
      subst ht
      exact hw.mapLive m s hm)
  obtain ⟨w', e, hw', hx, hmaps⟩ := releaseSto_wf h1.1
  exact ⟨w', e, hw', h1.2.trans hx, hmaps⟩

theorem free_ok {w : World} {m : Nat} {d : Spec.Dict} (hw : Good w) (hd : dictOf w m = some d) :
    ∃ w', mapFree w m = .ok w' ∧ Good w' ∧ w'.maps.length = w.maps.length ∧
      dictOf w' m = none ∧ ∀ m', m' ≠ m → dictOf w' m' = dictOf w m' := by
  obtain ⟨s, st, hm, hs, rfl⟩ := dictOf_some hd
  obtain ⟨w', e, hw', hx, hmaps⟩ := free_core hw hm
  refine ⟨w', by simp [mapFree, mapSto, hm, e], hw', by rw [hmaps]; simp, ?_, ?_⟩
  · rw [dictOf_none hw', hmaps]; exact Heap.get_put_self _ (Heap.get_lt hm)
  · intro m' hne
    refine dictOf_ext hx hw hw' ?_ (by simp)
    rw [hmaps]; exact Heap.get_put_ne _ (Ne.symm hne)

theorem assign_ok {w : World} {dst src : Nat} {d e : Spec.Dict} (hw : Good w) (hne : src ≠ dst)
    (hd : dictOf w dst = some d) (he : dictOf w src = some e) :
    ∃ w', mapAssign w dst src = .ok w' ∧ Upd w w' dst e := by
  obtain ⟨s, st, hm, hs, rfl⟩ := dictOf_some hd
  obtain ⟨w1, e1, hw1, x1, hmaps1⟩ := free_core hw hm
  have hsrc : dictOf w1 src = some e := by
    rw [dictOf_ext x1 hw hw1 (by rw [hmaps1]; exact Heap.get_put_ne _ (Ne.symm hne)) (by simp), he]
  obtain ⟨t, stt, hmt, hst, rfl⟩ := dictOf_some hsrc
  obtain ⟨e2, hw2, x2⟩ := addRefSto_wf hw1 hst
  have hst2 : (putS w1 t { stt with rc := stt.rc + 1 }).stos.get t
      = some { stt with rc := stt.rc + 1 } := Heap.get_put_self _ (Heap.get_lt hst)
  have hdl : dst < (putS w1 t { stt with rc := stt.rc + 1 }).maps.length := by
    show dst < w1.maps.length
    rw [hmaps1]; simp; exact Heap.get_lt hm
  have hdn : (putS w1 t { stt with rc := stt.rc + 1 }).maps.get dst = none := by
    show w1.maps.get dst = none
    rw [hmaps1]; exact Heap.get_put_self _ (Heap.get_lt hm)
  have h3 := putM_wf (w := putS w1 t { stt with rc := stt.rc + 1 }) (m := dst) (v := some t)
    (es' := none0) hw2 hdl (by
      intro t' ht'; simp at ht'; subst ht'; exact ⟨_, hst2⟩) (by
      intro t'
      have := mrefs_put (w := putS w1 t { stt with rc := stt.rc + 1 }) (v := some t) hdl t'
      rw [hdn] at this
      simp [none0] at this ⊢
      omega) (by simp [none0])
  have hx3 := x2.trans h3.2
  refine ⟨_, ?_, h3.1, ?_, ?_, ?_⟩
  · unfold mapAssign
    rw [if_neg hne]
    simp [mapSto, hm, e1, hmt, e2]
  · have : dictOf (putM (putS w1 t { stt with rc := stt.rc + 1 }) dst (some t)) dst
        = some (dictSto _ { stt with rc := stt.rc + 1 }) :=
      dictOf_of (Heap.get_put_self _ hdl) hst2
    rw [this]
    rfl
  · intro m' hne'
    refine (dictOf_ext hx3 hw1 h3.1 ?_ (by simp)).trans (dictOf_ext x1 hw hw1 ?_ (by simp))
    · show ((w1.maps).put dst (some t)).get m' = _
      exact Heap.get_put_ne _ (Ne.symm hne')
    · rw [hmaps1]; exact Heap.get_put_ne _ (Ne.symm hne')
  · show ((w1.maps).put dst (some t)).length = _
    rw [hmaps1]; simp

/-! ## Setters -/

theorem keyOk_eq (k : Key) : isValidVSMapKey k = Spec.KeyOk k := by
  have eu : ∀ c : Char, (c == '_') = decide (c = '_') := by
    intro c; by_cases h : c = '_' <;> simp [h]
  have h1 : ∀ c, isAlphaUnderscore c = (c.isAlpha || c == '_') := by
    intro c
    rw [Bool.eq_iff_iff, eu]
    simp only [isAlphaUnderscore, Char.isAlpha, Char.isUpper, Char.isLower, Char.le_def,
      Bool.or_eq_true, Bool.and_eq_true, decide_eq_true_eq, ge_iff_le]
    constructor
    · rintro ((h | h) | h)
      · exact .inl (.inr h)
      · exact .inl (.inl h)
      · exact .inr h
    · rintro ((h | h) | h)
      · exact .inl (.inr h)
      · exact .inl (.inl h)
      · exact .inr h
  have h2 : ∀ c, isAlphaNumUnderscore c = (c.isAlphanum || c == '_') := by
    intro c
    rw [Bool.eq_iff_iff, eu]
    simp only [isAlphaNumUnderscore, Char.isAlphanum, Char.isAlpha, Char.isDigit, Char.isUpper,
      Char.isLower, Char.le_def, Bool.or_eq_true, Bool.and_eq_true, decide_eq_true_eq, ge_iff_le]
    constructor
    · rintro (((h | h) | h) | h)
      · exact .inl (.inl (.inr h))
      · exact .inl (.inl (.inl h))
      · exact .inl (.inr h)
      · exact .inr h
    · rintro (((h | h) | h) | h)
      · exact .inl (.inl (.inr h))
      · exact .inl (.inl (.inl h))
      · exact .inl (.inr h)
      · exact .inr h
  unfold isValidVSMapKey Spec.KeyOk
  cases k.toList with
  | nil => rfl
  | cons c t =>
    simp only [h1]
    congr 2
    funext c
    exact h2 c

theorem keyOk_canon (k : Key) : Spec.KeyOk (Spec.canon k) = Spec.KeyOk k := by
  unfold Spec.canon
  by_cases h : k = "_ColorRange"
  · rw [if_pos h, h]; decide
  · rw [if_neg h]

theorem insertSingle_ok {w : World} {m : Nat} {d : Spec.Dict} (hw : Good w)
    (hd : dictOf w m = some d) (k : Key) (v : Val) (ty : PType) (hf : Spec.Fits ty v) :
    ∃ w', insertSingle w m k v ty = .ok (w', true) ∧ Upd w w' m (d.put k (some (ty, [v]))) := by
  obtain ⟨y, ey, hyrc, hyty, hycon, hyok⟩ := push_ok (arrOk_new ty) v hf
  obtain ⟨w', e, hu⟩ := insertNew_ok k hw hd hyok hyrc
  have hen : entry y = (ty, [v]) := by
    unfold entry; rw [hyty, hycon]; simp [Arr.new, contents]
  rw [hen] at hu
  exact ⟨w', by simp [insertSingle, ey, e], hu⟩

theorem typeOfCode_code {ty : PType} (h : ty ≠ .unset) : typeOfCode ty.code = some ty := by
  cases ty <;> first | exact absurd rfl h | decide

theorem code_eq_one {ty : PType} : ty.code = 1 ↔ ty = .int := by
  cases ty <;> decide

theorem setEmpty_ok {w : World} {m : Nat} {d : Spec.Dict} (hw : Good w)
    (hd : dictOf w m = some d) (k : Key) (type : Int) (hk : Spec.KeyOk k = true) :
    (∃ ty, typeOfCode type = some ty ∧ d.get (if type = 1 then Spec.canon k else k) = none ∧
      ∃ w', mapSetEmpty w m k type = .ok (w', 0) ∧
        Upd w w' m (d.put (if type = 1 then Spec.canon k else k) (some (ty, [])))) ∨
    ((typeOfCode type = none ∨ d.get (if type = 1 then Spec.canon k else k) ≠ none) ∧
      mapSetEmpty w m k type = .ok (w, 1)) := by
  obtain ⟨s, st, hm, hs, rfl⟩ := dictOf_some hd
  have ek : ¬ (isValidVSMapKey k = false) := by rw [keyOk_eq, hk]; simp
  have er : (if type = 1 then remapColorRange k else k) = (if type = 1 then Spec.canon k else k) := rfl
  unfold mapSetEmpty
  rw [if_neg ek]
  simp only [mapFind_eq hm hs, Res.bind_ok, er]
  generalize (if type = 1 then Spec.canon k else k) = k'
  cases hg : (dictSto w st).get k' with
  | some e =>
    obtain ⟨a, x, hf, -⟩ := find_some_iff hw hs hg
    exact .inr ⟨.inr (by simp), by simp [hf]⟩
  | none =>
    have hf := (find_none_iff hw hs k').mp hg
    cases ht : typeOfCode type with
    | none => exact .inr ⟨.inl rfl, by simp [hf]⟩
    | some ty =>
      obtain ⟨w', e, hu⟩ := insertNew_ok k' hw hd (arrOk_new ty) rfl
      rw [entry_new] at hu
      exact .inl ⟨ty, rfl, rfl, w', by simp [hf, e], hu⟩

theorem typeOf_eq (c : Int) : typeOfCode c = Spec.typeOf c := by
  unfold typeOfCode
  by_cases h1 : c = 1; · subst h1; rfl
  by_cases h2 : c = 2; · subst h2; rfl
  by_cases h3 : c = 3; · subst h3; rfl
  by_cases h4 : c = 4; · subst h4; rfl
  by_cases h5 : c = 5; · subst h5; rfl
  by_cases h6 : c = 6; · subst h6; rfl
  by_cases h7 : c = 7; · subst h7; rfl
  by_cases h8 : c = 8; · subst h8; rfl
  rw [if_neg h1, if_neg h2, if_neg h3, if_neg h5, if_neg h6, if_neg h7, if_neg h8, if_neg h4]
  unfold Spec.typeOf
  split <;> first | rfl | contradiction

theorem cString_eq (d : List Nat) :
    (if 0 ∈ d then some (d.takeWhile (· ≠ 0)) else none) = Spec.cString d := by
  induction d with
  | nil => rfl
  | cons c t ih =>
    cases c with
    | zero => simp [Spec.cString]
    | succ c =>
      simp only [Spec.cString, ← ih]
      by_cases h : 0 ∈ t <;> simp [h]

theorem stringOf_eq (d : List Nat) (l : Int) :
    stringOf d l = match Spec.bytes d l with | some b => .ok b | none => .ub := by
  unfold stringOf Spec.bytes
  by_cases h : l < 0
  · rw [if_neg (by omega), if_pos h, ← cString_eq]
    by_cases h0 : 0 ∈ d
    · rw [if_pos h0, if_pos h0]
    · rw [if_neg h0, if_neg h0]
  · rw [if_pos (by omega), if_neg h]
    by_cases h1 : d.length < l.toNat
    · rw [if_neg (by omega), if_pos h1]
    · rw [if_pos (by omega), if_neg h1]

theorem saturate_eq (i : Int) : int64ToIntS i = Spec.saturate i := by
  unfold int64ToIntS Spec.saturate INT_MAX INT_MIN
  split
  · omega
  · split <;> omega

/-- Agreement of the two levels on a call. -/
inductive Match : Res (World × Out) → Res (Spec.State × Out) → Prop
  | ok {w : World} {s : Spec.State} {o : Out} (hw : Good w) (hl : s.length = w.maps.length)
      (hs : ∀ m, s[m]?.join = dictOf w m) : Match (.ok (w, o)) (.ok (s, o))
  | err (msg : String) : Match (.err msg) (.err msg)
  | fatal (msg : String) : Match (.fatal msg) (.fatal msg)
  | ub : Match .ub .ub

/-- The specification state of a world. -/
structure Sim (w : World) (s : Spec.State) : Prop where
  good : Good w
  len : s.length = w.maps.length
  dict : ∀ m, s[m]?.join = dictOf w m

theorem Sim.look {w : World} {s : Spec.State} (h : Sim w s) (m : Nat) :
    Spec.look s m = match dictOf w m with | some d => .ok d | none => .ub := by
  unfold Spec.look; rw [h.dict m]; cases dictOf w m <;> rfl

theorem Sim.lt {w : World} {s : Spec.State} (h : Sim w s) {m : Nat} {d : Spec.Dict}
    (hd : dictOf w m = some d) : m < s.length := by
  rw [h.len]
  obtain ⟨t, st, hm, -, -⟩ := dictOf_some hd
  exact Heap.get_lt hm

theorem Sim.same {w : World} {s : Spec.State} (h : Sim w s) (o : Out) :
    Match (.ok (w, o)) (.ok (s, o)) := .ok h.good h.len h.dict

theorem join_set {s : Spec.State} {m m' : Nat} {v : Option Spec.Dict} (hm : m < s.length) :
    (s.set m v)[m']?.join = if m' = m then v else s[m']?.join := by
  by_cases h : m' = m
  · subst h; simp [hm]
  · simp [h, Ne.symm h]

theorem Sim.upd {w w' : World} {s : Spec.State} (h : Sim w s) {m : Nat} {d d' : Spec.Dict}
    (hd : dictOf w m = some d) (hu : Upd w w' m d') (o : Out) :
    Match (.ok (w', o)) (.ok (Spec.upd s m (some d'), o)) := by
  have hm := h.lt hd
  refine .ok hu.good (by simp [Spec.upd, h.len, hu.len]) ?_
  intro m'
  unfold Spec.upd
  rw [join_set hm]
  by_cases e : m' = m
  · subst e; simp [hu.at']
  · simp [e, hu.other m' e, h.dict m']

theorem dictOf_dead {w : World} (hw : Good w) {m : Nat} (h : dictOf w m = none) :
    mapSto w m = .ub := by
  have := (dictOf_none hw).mp h
  simp [mapSto, this]

theorem setter_match {w : World} {s : Spec.State} (h : Sim w s) (m : Nat) (k : Key) (v : Val)
    (ty : PType) (mode : Int) (hf : Spec.Fits ty v) (hty : ty = .int → k ≠ "_ColorRange") :
    Match (retCode (setResult (propSetShared w m k v ty mode))) (Spec.setter s m k v ty mode) := by
  unfold propSetShared Spec.setter
  by_cases hmode : mode ≠ 0 ∧ mode ≠ 1 ∧ mode ≠ 2
  · rw [if_pos hmode, if_pos hmode]; exact .fatal _
  rw [if_neg hmode, if_neg hmode]
  rw [keyOk_eq]
  by_cases hk : Spec.KeyOk k = false
  · rw [if_pos hk, if_pos hk]; exact h.same _
  rw [if_neg hk, if_neg hk]
  have hk' : Spec.KeyOk k = true := by simpa using hk
  have hcan : (if ty.code = 1 then Spec.canon k else k) = k := by
    by_cases hi : ty = .int
    · rw [if_pos (code_eq_one.mpr hi)]; unfold Spec.canon; rw [if_neg (hty hi)]
    · rw [if_neg (fun e => hi (code_eq_one.mp e))]
  have huns : ty ≠ .unset := by intro e; subst e; exact hf
  cases hd : dictOf w m with
  | none =>
    have hu := dictOf_dead h.good hd
    have hub : ∀ k a w', w'.maps = w.maps → mapInsert w' m k a = .ub := by
      intro k a w' hw'
      have : mapSto w' m = .ub := by unfold mapSto at hu ⊢; rw [hw']; exact hu
      simp [mapInsert, detach, this]
    have hfind : ∀ k, mapFind w m k = .ub := by intro k; simp [mapFind, hu]
    have hins : insertSingle w m k v ty = .ub := by
      obtain ⟨y, ey, -⟩ := push_ok (arrOk_new ty) v hf
      unfold insertSingle
      rw [ey, Res.bind_ok]
      simp only [hub k _ (newArr w y).1 rfl, Res.bind_ub]
    have hse : mapSetEmpty w m k ty.code = .ub := by
      unfold mapSetEmpty
      rw [keyOk_eq, if_neg hk]
      simp only [hfind, Res.bind_ub]
    have hl : Spec.look s m = .ub := by rw [h.look, hd]
    rw [hl, Res.bind_ub]
    by_cases h0 : mode = 0
    · rw [if_pos h0, hins]; exact .ub
    rw [if_neg h0]
    by_cases h1 : mode = 1
    · rw [if_pos h1, hfind, Res.bind_ub]; exact .ub
    rw [if_neg h1, hse, Res.bind_ub]
    exact .ub
  | some d =>
    have hl : Spec.look s m = .ok d := by rw [h.look, hd]
    rw [hl, Res.bind_ok]
    unfold Spec.setVal
    rw [if_neg hk]
    by_cases h0 : mode = 0
    · rw [if_pos h0, if_pos h0]
      obtain ⟨w', e, hu⟩ := insertSingle_ok h.good hd k v ty hf
      rw [e]
      exact h.upd hd hu _
    rw [if_neg h0, if_neg h0]
    obtain ⟨t, st, hm, hs, rfl⟩ := dictOf_some hd
    by_cases h1 : mode = 1
    · rw [if_pos h1, if_pos h1, mapFind_eq hm hs, Res.bind_ok]
      cases hg : (dictSto w st).get k with
      | none =>
        rw [(find_none_iff h.good hs k).mp hg]
        obtain ⟨w', e, hu⟩ := insertSingle_ok h.good hd k v ty hf
        simp only [e]
        exact h.upd hd hu _
      | some en =>
        obtain ⟨ty', l⟩ := en
        obtain ⟨a, x, hfa, hxa, hen, -⟩ := find_some_iff h.good hs hg
        have hxt : x.ty = ty' := by simp [entry] at hen; exact hen.1
        rw [hfa]
        simp only [getA, hxa, Res.bind_ok, hxt]
        by_cases ht : ty' = ty
        · subst ht
          rw [if_pos rfl, if_pos rfl]
          obtain ⟨w', e, hu⟩ := append_ok h.good hd hg hf
          rw [e]
          exact h.upd hd hu _
        · rw [if_neg ht, if_neg ht]
          exact h.same _
    · rw [if_neg h1, if_neg h1]
      rcases setEmpty_ok h.good hd k ty.code hk' with ⟨ty', ht, hn, w', e, hu⟩ | ⟨hor, e⟩
      · rw [typeOfCode_code huns] at ht
        simp at ht; subst ht
        rw [hcan] at hn hu
        rw [e, hn]
        exact h.upd hd hu _
      · rw [hcan, typeOfCode_code huns] at hor
        rw [e]
        cases hg : (dictSto w st).get k with
        | none => rw [hg] at hor; simp at hor
        | some en => exact h.same _

theorem setArray_match {w : World} {s : Spec.State} (h : Sim w s) (m : Nat) (k : Key) (l : List Val)
    (ty : PType) (hf : ∀ v ∈ l, Spec.Fits ty v) :
    Match (retCode (do
      let w ← mapInsert (newArr w (Arr.ofList ty l)).1 m k (newArr w (Arr.ofList ty l)).2
      .ok (w, 0))) (Spec.setArray s m k l ty) := by
  unfold Spec.setArray
  cases hd : dictOf w m with
  | none =>
    have hu := dictOf_dead h.good hd
    have : mapSto (newArr w (Arr.ofList ty l)).1 m = .ub := hu
    rw [h.look, hd]
    simp only [mapInsert, detach, this, Res.bind_ub]
    exact .ub
  | some d =>
    rw [h.look, hd]
    obtain ⟨w', e, hu⟩ := insertNew_ok k h.good hd (arrOk_ofList ty l hf) rfl
    rw [entry_ofList] at hu
    rw [e]
    exact h.upd hd hu _

/-! ## Reads -/

theorem read_match {α : Type} {w : World} {s : Spec.State} (h : Sim w s) (m : Nat) (f : α → Out)
    (r : Res α) (g : Spec.Dict → Res Out) (hub : mapSto w m = .ub → r = .ub)
    (hok : ∀ d t st, dictOf w m = some d → w.maps.get m = some t → w.stos.get t = some st →
      d = dictSto w st → (do let v ← r; Res.ok (f v)) = g d) :
    Match (retRead w f r) (Spec.reading s m g) := by
  unfold Spec.reading retRead
  cases hd : dictOf w m with
  | none =>
    rw [h.look, hd, hub (dictOf_dead h.good hd)]
    exact .ub
  | some d =>
    rw [h.look, hd]
    obtain ⟨t, st, hm, hs, rfl⟩ := dictOf_some hd
    have := hok _ t st hd hm hs rfl
    simp only [Res.bind_ok]
    rw [← this]
    cases r with
    | ok v => exact h.same _
    | err e => exact .err _
    | fatal e => exact .fatal _
    | ub => exact .ub

/-- `propGetShared` on a live map, in terms of the dictionary. -/
theorem propGet_eq {w : World} (hw : Good w) {m t : Nat} {st : Sto} (hm : w.maps.get m = some t)
    (hs : w.stos.get t = some st) (k : Key) (i : Int) (e : Bool) (ty : PType) :
    (∃ v x a, Spec.readAt (dictSto w st) k i ty = .inr v ∧ (dictSto w st).get k = some (ty, contents x) ∧
      propGetShared w m k i e ty = .ok (some x, 0) ∧ 0 ≤ i ∧ (contents x)[i.toNat]? = some v ∧
      ArrOk x ∧ w.arrs.get a = some x ∧ x.ty = ty) ∨
    (∃ c msg, Spec.readAt (dictSto w st) k i ty = .inl c ∧
      propGetShared w m k i e ty = readFail e c msg ∧
      ∀ o, Spec.failWith o e c = if e then .ok (o c) else .fatal msg) := by
  unfold propGetShared Spec.readAt
  simp only [mapSto, hm, getS, hs, Res.bind_ok]
  by_cases herr : st.error = true
  · right
    refine ⟨peError, "map with error set", ?_, ?_, ?_⟩
    · simp [dictSto, herr, peError]
    · simp [herr]
    · intro o; simp [Spec.failWith, peError]
  · have herr' : (dictSto w st).err = false := by simpa [dictSto] using herr
    rw [if_neg herr]
    simp only [herr', Bool.false_eq_true, if_false]
    cases hg : (dictSto w st).get k with
    | none =>
      right
      rw [(find_none_iff hw hs k).mp hg]
      exact ⟨peUnset, "missing key", rfl, rfl, fun o => by simp [Spec.failWith, peUnset]⟩
    | some en =>
      obtain ⟨ty', l⟩ := en
      obtain ⟨a, x, hfa, hxa, hen, hok⟩ := find_some_iff hw hs hg
      have hxt : x.ty = ty' := by simp [entry] at hen; exact hen.1
      have hxl : contents x = l := by simp [entry] at hen; exact hen.2
      rw [hfa]
      simp only [getA, hxa, Res.bind_ok]
      have hlen := hok.len
      rw [hxl] at hlen
      by_cases hi : i < 0
      · right
        refine ⟨peIndex, "out of bounds index", by simp [hi, peIndex], by simp [hi], ?_⟩
        intro o; simp [Spec.failWith, peIndex]
      · by_cases hi2 : i ≥ (x.fsize : Int)
        · right
          have : l[i.toNat]? = none := by
            rw [List.getElem?_eq_none_iff]; omega
          refine ⟨peIndex, "out of bounds index", by simp [hi, this, peIndex], by simp [hi2], ?_⟩
          intro o; simp [Spec.failWith, peIndex]
        · have hlt : i.toNat < l.length := by omega
          have hv : l[i.toNat]? = some l[i.toNat] := List.getElem?_eq_getElem hlt
          rw [if_neg hi, if_neg (by omega), hv]
          by_cases ht : ty' = ty
          · left
            refine ⟨l[i.toNat], x, a, by simp [ht], ?_, ?_, by omega, ?_, hok, hxa, hxt.trans ht⟩
            · rw [hxl, ht]
            · rw [hxt, if_neg (by simp [ht])]; rfl
            · rw [hxl, hv]
          · right
            refine ⟨peType, "wrong type", by simp [ht, peType], ?_, ?_⟩
            · rw [hxt, if_pos (by simpa using ht)]
            · intro o; simp [Spec.failWith, peType]

theorem getElem_eq {w : World} (hw : Good w) {m t : Nat} {st : Sto} (hm : w.maps.get m = some t)
    (hs : w.stos.get t = some st) (k : Key) (i : Int) (e : Bool) (ty : PType) :
    (∃ v, Spec.readAt (dictSto w st) k i ty = .inr v ∧
      getElem w m k i e ty = .ok (some v, 0) ∧ Spec.Fits ty v) ∨
    (∃ c msg, Spec.readAt (dictSto w st) k i ty = .inl c ∧
      getElem w m k i e ty = readFail e c msg ∧
      ∀ o, Spec.failWith o e c = if e then .ok (o c) else .fatal msg) := by
  rcases propGet_eq hw hm hs k i e ty with ⟨v, x, a, h1, -, h2, h0, hv, hok, -, hty⟩ | ⟨c, msg, h1, h2, h3⟩
  · refine .inl ⟨v, h1, ?_, ?_⟩
    · simp [getElem, h2, at_ok hok hv]
    · rw [← hty]; exact hok.fits v (List.mem_of_getElem? hv)
  · refine .inr ⟨c, msg, h1, ?_, h3⟩
    rw [getElem, h2]
    cases e <;> simp [readFail]

theorem getElem_ub {w : World} {m : Nat} (h : mapSto w m = .ub) (k : Key) (i : Int) (e : Bool)
    (ty : PType) : getElem w m k i e ty = .ub := by
  simp [getElem, propGetShared, h]

theorem fits_int {v : Val} (h : Spec.Fits .int v) : ∃ i, v = .int i := by
  cases v with
  | int i => exact ⟨i, rfl⟩
  | _ => exact absurd h (by simp [Spec.Fits])
theorem fits_float {v : Val} (h : Spec.Fits .float v) : ∃ i, v = .float i := by
  cases v with
  | float i => exact ⟨i, rfl⟩
  | _ => exact absurd h (by simp [Spec.Fits])
theorem fits_data {v : Val} (h : Spec.Fits .data v) : ∃ i b, v = .data i b := by
  cases v with
  | data i b => exact ⟨i, b, rfl⟩
  | _ => exact absurd h (by simp [Spec.Fits])

theorem getInt_match {w : World} {s : Spec.State} (h : Sim w s) (m : Nat) (k : Key) (i : Int)
    (e : Bool) : Match (retRead w (fun p : Int × Int => .int p.1 p.2) (mapGetInt w m k i e))
      (Spec.reading s m fun d => Spec.readInt d k i e) := by
  refine read_match h m _ _ _ (fun hu => by simp [mapGetInt, getElem_ub hu]) ?_
  intro d t st _ hm hs hd
  subst hd
  unfold mapGetInt Spec.readInt
  have e1 : remapColorRange k = Spec.canon k := rfl
  rw [e1]
  rcases getElem_eq h.good hm hs (Spec.canon k) i e .int with ⟨v, h1, h2, h3⟩ | ⟨c, msg, h1, h2, h3⟩
  · obtain ⟨iv, rfl⟩ := fits_int h3
    rw [h1, h2]; rfl
  · rw [h1, h2]
    simp only [h3]
    cases e <;> simp [readFail]

theorem getIntSat_match {w : World} {s : Spec.State} (h : Sim w s) (m : Nat) (k : Key) (i : Int)
    (e : Bool) : Match (retRead w (fun p : Int × Int => .int p.1 p.2) (mapGetIntSaturated w m k i e))
      (Spec.reading s m fun d => Spec.readIntSat d k i e) := by
  refine read_match h m _ _ _ (fun hu => by simp [mapGetIntSaturated, mapGetInt, getElem_ub hu]) ?_
  intro d t st _ hm hs hd
  subst hd
  unfold mapGetIntSaturated mapGetInt Spec.readIntSat
  simp only [saturate_eq]
  have e1 : remapColorRange k = Spec.canon k := rfl
  rw [e1]
  rcases getElem_eq h.good hm hs (Spec.canon k) i e .int with ⟨v, h1, h2, h3⟩ | ⟨c, msg, h1, h2, h3⟩
  · obtain ⟨iv, rfl⟩ := fits_int h3
    rw [h1, h2]; rfl
  · rw [h1, h2]
    simp only [h3]
    cases e <;> simp [readFail] <;> decide

theorem getFloat_match {w : World} {s : Spec.State} (h : Sim w s) (m : Nat) (k : Key) (i : Int)
    (e : Bool) : Match (retRead w (fun p : Nat × Int => .float p.1 p.2) (mapGetFloat w m k i e))
      (Spec.reading s m fun d => Spec.readFloat d k i e) := by
  refine read_match h m _ _ _ (fun hu => by simp [mapGetFloat, getElem_ub hu]) ?_
  intro d t st _ hm hs hd
  subst hd
  unfold mapGetFloat Spec.readFloat
  rcases getElem_eq h.good hm hs k i e .float with ⟨v, h1, h2, h3⟩ | ⟨c, msg, h1, h2, h3⟩
  · obtain ⟨iv, rfl⟩ := fits_float h3
    rw [h1, h2]; rfl
  · rw [h1, h2]
    simp only [h3]
    cases e <;> simp [readFail]

theorem getData_match {w : World} {s : Spec.State} (h : Sim w s) (m : Nat) (k : Key) (i : Int)
    (e : Bool) : Match (retRead w (fun p : Option (Int × List Nat) × Int => .data p.1 p.2)
      (mapGetData w m k i e)) (Spec.reading s m fun d => Spec.readData d k i e) := by
  refine read_match h m _ _ _ (fun hu => by simp [mapGetData, getElem_ub hu]) ?_
  intro d t st _ hm hs hd
  subst hd
  unfold mapGetData Spec.readData
  rcases getElem_eq h.good hm hs k i e .data with ⟨v, h1, h2, h3⟩ | ⟨c, msg, h1, h2, h3⟩
  · obtain ⟨iv, b, rfl⟩ := fits_data h3
    rw [h1, h2]; rfl
  · rw [h1, h2]
    simp only [h3]
    cases e <;> simp [readFail]

theorem takeObj_eq (v : Val) : (do let p ← takeObj v; Res.ok (Out.obj (some p) 0)) = Spec.refOut v := by
  cases v with
  | obj p => cases p <;> rfl
  | _ => rfl

theorem getFunction_match {w : World} {s : Spec.State} (h : Sim w s) (m : Nat) (k : Key) (i : Int)
    (e : Bool) : Match (retRead w (fun p : Option Nat × Int => .obj p.1 p.2)
      (mapGetFunction w m k i e)) (Spec.reading s m fun d => Spec.readFunction d k i e) := by
  refine read_match h m _ _ _ (fun hu => by simp [mapGetFunction, getElem_ub hu]) ?_
  intro d t st _ hm hs hd
  subst hd
  unfold mapGetFunction Spec.readFunction
  rcases getElem_eq h.good hm hs k i e .function with ⟨v, h1, h2, h3⟩ | ⟨c, msg, h1, h2, h3⟩
  · rw [h1, h2]
    simp only [Res.bind_ok]
    rw [← takeObj_eq]
    cases takeObj v <;> rfl
  · rw [h1, h2]
    simp only [h3]
    cases e <;> simp [readFail]

theorem getObj2_match {w : World} {s : Spec.State} (h : Sim w s) (m : Nat) (k : Key) (i : Int)
    (e : Bool) (tyV tyA : PType) : Match (retRead w (fun p : Option Nat × Int => .obj p.1 p.2)
      (getObj2 w m k i e tyV tyA)) (Spec.reading s m fun d => Spec.readRef d k i e tyV tyA) := by
  refine read_match h m _ _ _ (fun hu => by simp [getObj2, getElem_ub hu]) ?_
  intro d t st _ hm hs hd
  subst hd
  unfold getObj2 Spec.readRef
  rcases getElem_eq h.good hm hs k i true tyV with ⟨v, h1, h2, h3⟩ | ⟨c, msg, h1, h2, h3⟩
  · rw [h1, h2]
    simp only [Res.bind_ok]
    rw [← takeObj_eq]
    cases takeObj v <;> rfl
  · rw [h1, h2]
    simp only [readFail, if_true, Res.bind_ok]
    rcases getElem_eq h.good hm hs k i e tyA with ⟨v, h1', h2', h3'⟩ | ⟨c', msg', h1', h2', h3'⟩
    · rw [h1', h2']
      simp only [Res.bind_ok]
      rw [← takeObj_eq]
      cases takeObj v <;> rfl
    · rw [h1', h2']
      simp only [h3']
      cases e <;> simp [readFail]

theorem propGet_ub {w : World} {m : Nat} (h : mapSto w m = .ub) (k : Key) (i : Int) (e : Bool)
    (ty : PType) : propGetShared w m k i e ty = .ub := by
  simp [propGetShared, h]

theorem getFloatArray_match {w : World} {s : Spec.State} (h : Sim w s) (m : Nat) (k : Key)
    (e : Bool) : Match (retRead w (fun p : Option (List Val) × Int => .array p.1 p.2)
      (mapGetFloatArray w m k e)) (Spec.reading s m fun d => Spec.readArray d k e .float id) := by
  refine read_match h m _ _ _ (fun hu => by simp [mapGetFloatArray, propGet_ub hu]) ?_
  intro d t st _ hm hs hd
  subst hd
  unfold mapGetFloatArray Spec.readArray
  rcases propGet_eq h.good hm hs k 0 e .float with ⟨v, x, a, h1, hg, h2, h0, hv, hok, -, hty⟩ |
    ⟨c, msg, h1, h2, h3⟩
  · rw [h1, h2, hg]
    simp [dataPointer_ok hok]
  · rw [h1, h2]
    simp only [h3]
    cases e <;> simp [readFail]

theorem getIntArray_match {w : World} {s : Spec.State} (h : Sim w s) (m : Nat) (k : Key)
    (e : Bool) : Match (retRead w (fun p : Option (List Val) × Int => .array p.1 p.2)
      (mapGetIntArray w m k e))
      (Spec.reading s m fun d => Spec.readArray d (Spec.canon k) e .int (Spec.rangeArray k)) := by
  refine read_match h m _ _ _ (fun hu => by simp [mapGetIntArray, propGet_ub hu]) ?_
  intro d t st _ hm hs hd
  subst hd
  unfold mapGetIntArray Spec.readArray
  have e1 : remapColorRange k = Spec.canon k := rfl
  rw [e1]
  rcases propGet_eq h.good hm hs (Spec.canon k) 0 e .int with
    ⟨v, x, a, h1, hg, h2, h0, hv, hok, -, hty⟩ | ⟨c, msg, h1, h2, h3⟩
  · rw [h1, h2, hg]
    have hlen := hok.len
    have hv' : x.at 0 = .ok v := at_ok hok hv
    have hfv : Spec.Fits .int v := by rw [← hty]; exact hok.fits v (List.mem_of_getElem? hv)
    obtain ⟨iv, rfl⟩ := fits_int hfv
    simp only [Res.bind_ok]
    unfold Spec.rangeArray
    by_cases hk : k = "_ColorRange"
    · by_cases h1 : x.fsize = 1
      · rw [if_pos ⟨hk, h1⟩, hv']
        rw [h1] at hlen
        obtain ⟨u, hu⟩ := List.length_eq_one_iff.mp hlen
        rw [hu] at hv ⊢
        simp at hv; subst hv
        simp [hk]; rfl
      · rw [if_neg (fun hc => h1 hc.2), dataPointer_ok hok]
        simp only [Res.bind_ok, if_pos hk]
        cases hc : contents x with
        | nil => rfl
        | cons u t =>
          cases t with
          | nil => rw [hc] at hlen; simp at hlen; omega
          | cons u' t' => cases u <;> rfl
    · rw [if_neg (fun hc => hk hc.1), dataPointer_ok hok]
      simp [hk]
  · rw [h1, h2]
    simp only [h3]
    cases e <;> simp [readFail]

theorem getError_match {w : World} {s : Spec.State} (h : Sim w s) (m : Nat) :
    Match (retRead w .message (mapGetError w m)) (Spec.reading s m Spec.readError) := by
  refine read_match h m _ _ _ (fun hu => by simp [mapGetError, hu]) ?_
  intro d t st _ hm hs hd
  subst hd
  unfold mapGetError Spec.readError
  simp only [mapSto, hm, getS, hs, Res.bind_ok]
  have he : (dictSto w st).err = st.error := rfl
  rw [he]
  by_cases herr : st.error = true
  · rw [if_pos herr, if_pos herr]
    cases hg : (dictSto w st).get "_Error" with
    | none => rw [(find_none_iff h.good hs _).mp hg]; rfl
    | some en =>
      obtain ⟨ty', l⟩ := en
      obtain ⟨a, x, hfa, hxa, hen, hok⟩ := find_some_iff h.good hs hg
      have hxt : x.ty = ty' := by simp [entry] at hen; exact hen.1
      have hxl : contents x = l := by simp [entry] at hen; exact hen.2
      rw [hfa]
      simp only [getA, hxa, Res.bind_ok, hxt]
      by_cases ht : ty' = .data
      · rw [if_pos ht, if_pos ht]
        cases hl : l with
        | nil =>
          have hlen := hok.len
          rw [hxl, hl] at hlen
          have hat : x.at 0 = .fatal "std::out_of_range" := by
            unfold Arr.at
            rw [if_neg (by simp at hlen; omega), hok.small (by simp at hlen; omega)]
            rfl
          rw [hat]; rfl
        | cons v t =>
          have hv : (contents x)[0]? = some v := by rw [hxl, hl]; rfl
          have hfv : Spec.Fits .data v := by
            rw [← ht, ← hxt]; exact hok.fits v (List.mem_of_getElem? hv)
          obtain ⟨iv, b, rfl⟩ := fits_data hfv
          rw [at_ok hok hv]
          rfl
      · rw [if_neg ht, if_neg ht]; rfl
  · rw [if_neg herr, if_neg herr]; rfl

theorem numElements_match {w : World} {s : Spec.State} (h : Sim w s) (m : Nat) (k : Key) :
    Match (retRead w .code (mapNumElements w m k)) (Spec.reading s m fun d =>
      .ok (.code (match d.get (Spec.canon k) with | some (_, l) => l.length | none => -1))) := by
  refine read_match h m _ _ _ (fun hu => by simp [mapNumElements, mapFind, hu]) ?_
  intro d t st _ hm hs hd
  subst hd
  unfold mapNumElements
  have e1 : remapColorRange k = Spec.canon k := rfl
  rw [e1, mapFind_eq hm hs]
  simp only [Res.bind_ok]
  cases hg : (dictSto w st).get (Spec.canon k) with
  | none => rw [(find_none_iff h.good hs _).mp hg]; rfl
  | some en =>
    obtain ⟨ty', l⟩ := en
    obtain ⟨a, x, hfa, hxa, hen, hok⟩ := find_some_iff h.good hs hg
    have hxl : contents x = l := by simp [entry] at hen; exact hen.2
    rw [hfa]
    simp only [getA, hxa, Res.bind_ok]
    rw [← hok.len, hxl]

theorem getType_match {w : World} {s : Spec.State} (h : Sim w s) (m : Nat) (k : Key) :
    Match (retRead w .type (mapGetType w m k)) (Spec.reading s m fun d =>
      .ok (.type (match d.get (Spec.canon k) with | some (ty, _) => ty | none => .unset))) := by
  refine read_match h m _ _ _ (fun hu => by simp [mapGetType, mapFind, hu]) ?_
  intro d t st _ hm hs hd
  subst hd
  unfold mapGetType
  have e1 : remapColorRange k = Spec.canon k := rfl
  rw [e1, mapFind_eq hm hs]
  simp only [Res.bind_ok]
  cases hg : (dictSto w st).get (Spec.canon k) with
  | none => rw [(find_none_iff h.good hs _).mp hg]; rfl
  | some en =>
    obtain ⟨ty', l⟩ := en
    obtain ⟨a, x, hfa, hxa, hen, hok⟩ := find_some_iff h.good hs hg
    have hxt : x.ty = ty' := by simp [entry] at hen; exact hen.1
    rw [hfa]
    simp only [getA, hxa, Res.bind_ok, hxt]

/-! ## Every call -/

theorem delete_match {w : World} {s : Spec.State} (h : Sim w s) (m : Nat) (k : Key) :
    Match (retCode (do let r ← mapDeleteKey w m k; .ok (r.1, if r.2 then 1 else 0)))
      (Spec.delete s m k) := by
  unfold Spec.delete
  cases hd : dictOf w m with
  | none =>
    have hu := dictOf_dead h.good hd
    rw [h.look, hd]
    simp only [mapDeleteKey, mapErase, mapFind, hu, Res.bind_ub]
    exact .ub
  | some d =>
    rw [h.look, hd]
    obtain ⟨w1, e1, hu1⟩ := erase_ok h.good hd k
    unfold mapDeleteKey
    rw [e1]
    simp only [Res.bind_ok]
    by_cases hk : k = "_ColorRange"
    · rw [if_pos hk, if_pos hk]
      obtain ⟨w2, e2, hu2⟩ := erase_ok hu1.good hu1.at' "_Range"
      rw [e2]
      have hu : Upd w w2 m ((d.put k none).put "_Range" none) :=
        ⟨hu2.good, hu2.at', fun m' hne => (hu2.other m' hne).trans (hu1.other m' hne),
          hu2.len.trans hu1.len⟩
      have hput : (d.put k none).get "_Range" = d.get "_Range" := by
        have : "_Range" ≠ k := by rw [hk]; decide
        simp [Spec.Dict.put, this]
      simp only [hput]
      have hcode : (if ((d.get "_Range").isSome || (d.get k).isSome) = true then (1 : Int) else 0)
          = if (d.get k).isSome = true ∨ (d.get "_Range").isSome = true then 1 else 0 := by
        cases (d.get k).isSome <;> cases (d.get "_Range").isSome <;> rfl
      have := h.upd hd hu
        (.code (if ((d.get "_Range").isSome || (d.get k).isSome) = true then (1 : Int) else 0))
      rw [hcode] at this
      simp only [Res.bind_ok, retCode, hcode]
      exact this
    · rw [if_neg hk, if_neg hk]
      exact h.upd hd hu1 _

theorem step_match {w : World} {s : Spec.State} (h : Sim w s) (op : Op) :
    Match (step w op) (Spec.step s op) := by
  have canon_ne : ∀ k, Spec.canon k ≠ "_ColorRange" := by
    intro k; unfold Spec.canon
    by_cases e : k = "_ColorRange"
    · rw [if_pos e]; decide
    · rw [if_neg e]; exact e
  cases op with
  | create =>
    obtain ⟨h1, h2, h3, h4, h5⟩ := create_ok h.good
    have hm := h.len
    show Match (.ok ((mapCreate w).1, .handle (mapCreate w).2)) (.ok (s ++ [some Spec.Dict.empty], .handle s.length))
    rw [h2, ← hm]
    refine .ok h1 (by simp [h3, hm]) ?_
    intro m
    by_cases e : m = s.length
    · subst e; rw [hm, h4, ← hm]; simp
    · rw [h5 m (by rw [← hm]; exact e), ← h.dict m]
      rcases Nat.lt_or_ge m s.length with hl | hl
      · rw [List.getElem?_append_left hl]
      · rw [List.getElem?_eq_none hl, List.getElem?_eq_none]; simp; omega
  | clone src =>
    show Match (retHandle (mapClone w src)) (do let d ← Spec.look s src; .ok (s ++ [some d], .handle s.length))
    cases hd : dictOf w src with
    | none =>
      rw [h.look, hd]
      simp only [mapClone, dictOf_dead h.good hd, Res.bind_ub]
      exact .ub
    | some d =>
      rw [h.look, hd]
      obtain ⟨w', e, h1, h3, h4, h5⟩ := clone_ok h.good hd
      have hm := h.len
      rw [e]
      show Match (.ok (w', .handle w.maps.length)) (.ok (s ++ [some d], .handle s.length))
      rw [← hm]
      refine .ok h1 (by simp [h3, hm]) ?_
      intro m
      by_cases e : m = s.length
      · subst e; rw [hm, h4, ← hm]; simp
      · rw [h5 m (by rw [← hm]; exact e), ← h.dict m]
        rcases Nat.lt_or_ge m s.length with hl | hl
        · rw [List.getElem?_append_left hl]
        · rw [List.getElem?_eq_none hl, List.getElem?_eq_none]; simp; omega
  | assign dst src =>
    show Match (retUnit (mapAssign w dst src)) (Spec.step s (.assign dst src))
    simp only [Spec.step]
    by_cases hne : src = dst
    · rw [if_pos hne]; unfold mapAssign; rw [if_pos hne]; exact h.same _
    · rw [if_neg hne]
      cases hd : dictOf w dst with
      | none =>
        rw [h.look, hd]
        unfold mapAssign; rw [if_neg hne]
        simp only [dictOf_dead h.good hd, Res.bind_ub]
        exact .ub
      | some d =>
        rw [h.look, hd]
        simp only [Res.bind_ok]
        cases he : dictOf w src with
        | none =>
          rw [h.look, he]
          obtain ⟨t, st, hm, hs, rfl⟩ := dictOf_some hd
          obtain ⟨w1, e1, hw1, x1, hmaps1⟩ := free_core h.good hm
          have hsrc : mapSto w1 src = .ub := by
            unfold mapSto; rw [hmaps1, Heap.get_put_ne _ (Ne.symm hne), (dictOf_none h.good).mp he]
          unfold mapAssign; rw [if_neg hne]
          have hmd : mapSto w dst = .ok t := by simp [mapSto, hm]
          simp only [hmd, Res.bind_ok, e1, hsrc, Res.bind_ub]
          exact .ub
        | some e =>
          rw [h.look, he]
          obtain ⟨w', ew, hu⟩ := assign_ok h.good hne hd he
          rw [ew]
          exact h.upd hd hu _
  | copy src dst =>
    show Match (retUnit (mapCopy w dst src)) (Spec.step s (.copy src dst))
    simp only [Spec.step]
    by_cases hne : src = dst
    · rw [if_pos hne]; unfold mapCopy; rw [if_pos hne]; exact h.same _
    · rw [if_neg hne]
      cases hd : dictOf w dst with
      | none =>
        rw [h.look, hd]
        unfold mapCopy; rw [if_neg hne]
        simp only [detach, dictOf_dead h.good hd, Res.bind_ub]
        exact .ub
      | some d =>
        rw [h.look, hd]
        simp only [Res.bind_ok]
        cases he : dictOf w src with
        | none =>
          rw [h.look, he]
          obtain ⟨t, st, hm, hs, rfl⟩ := dictOf_some hd
          obtain ⟨w1, s1, st1, e1, hw1, x1, hm1, hs1, hrc1, hd1, he1, ho1, hl1⟩ := detach_ok h.good hm hs
          have hsrc : mapSto w1 src = .ub := by
            unfold mapSto; rw [ho1 src hne, (dictOf_none h.good).mp he]
          unfold mapCopy; rw [if_neg hne]
          simp only [e1, Res.bind_ok, hsrc, Res.bind_ub]
          exact .ub
        | some e =>
          rw [h.look, he]
          obtain ⟨w', ew, hu⟩ := copy_ok h.good hne hd he
          rw [ew]
          exact h.upd hd hu _
  | free m =>
    show Match (retUnit (mapFree w m)) (do let _ ← Spec.look s m; .ok (Spec.upd s m none, .unit))
    cases hd : dictOf w m with
    | none =>
      rw [h.look, hd]
      simp only [mapFree, dictOf_dead h.good hd, Res.bind_ub]
      exact .ub
    | some d =>
      rw [h.look, hd]
      obtain ⟨w', e, h1, h2, h3, h4⟩ := free_ok h.good hd
      rw [e]
      refine .ok h1 (by simp [Spec.upd, h.len, h2]) ?_
      intro m'
      unfold Spec.upd
      rw [join_set (h.lt hd)]
      by_cases em : m' = m
      · subst em; simp [h3]
      · simp [em, h4 m' em, h.dict m']
  | clear m =>
    show Match (retUnit (mapClear w m))
      (do let _ ← Spec.look s m; .ok (Spec.upd s m (some Spec.Dict.empty), .unit))
    cases hd : dictOf w m with
    | none =>
      rw [h.look, hd]
      simp only [mapClear, dictOf_dead h.good hd, Res.bind_ub]
      exact .ub
    | some d =>
      rw [h.look, hd]
      obtain ⟨w', e, hu⟩ := clear_ok h.good hd
      rw [e]
      exact h.upd hd hu _
  | setError m msg =>
    show Match (retUnit (mapSetError w m msg))
      (do let _ ← Spec.look s m; .ok (Spec.upd s m (some (Spec.Dict.error msg)), .unit))
    cases hd : dictOf w m with
    | none =>
      rw [h.look, hd]
      simp only [mapSetError, mapClear, dictOf_dead h.good hd, Res.bind_ub]
      exact .ub
    | some d =>
      rw [h.look, hd]
      obtain ⟨w', e, hu⟩ := setError_ok h.good hd msg
      rw [e]
      exact h.upd hd hu _
  | setInt m k i a => exact setter_match h m _ _ _ _ trivial (fun _ => canon_ne k)
  | setFloat m k b a => exact setter_match h m _ _ _ _ trivial (by simp)
  | setData m k d l hint a =>
    show Match (retCode (mapSetData w m k d l hint a)) (Spec.step s (.setData m k d l hint a))
    simp only [Spec.step]
    unfold mapSetData
    rw [stringOf_eq]
    cases Spec.bytes d l with
    | some b => exact setter_match h m _ _ _ _ trivial (by simp)
    | none => exact .ub
  | setNode m k o a =>
    cases o with
    | none => exact setter_match h m _ _ _ _ trivial (by simp)
    | some p =>
      obtain ⟨p, b⟩ := p
      cases b
      · exact setter_match h m _ _ _ _ trivial (by simp)
      · exact setter_match h m _ _ _ _ trivial (by simp)
  | setFrame m k o a =>
    cases o with
    | none => exact setter_match h m _ _ _ _ trivial (by simp)
    | some p =>
      obtain ⟨p, b⟩ := p
      cases b
      · exact setter_match h m _ _ _ _ trivial (by simp)
      · exact setter_match h m _ _ _ _ trivial (by simp)
  | setFunction m k p a => exact setter_match h m _ _ _ _ trivial (by simp)
  | setEmpty m k t =>
    show Match (retCode (mapSetEmpty w m k t)) (Spec.setEmpty s m k t)
    unfold Spec.setEmpty
    by_cases hk : Spec.KeyOk k = false
    · rw [if_pos hk]
      unfold mapSetEmpty
      rw [keyOk_eq, if_pos hk]
      exact h.same _
    · rw [if_neg hk]
      cases hd : dictOf w m with
      | none =>
        rw [h.look, hd]
        unfold mapSetEmpty
        rw [keyOk_eq, if_neg hk]
        simp only [mapFind, dictOf_dead h.good hd, Res.bind_ub]
        exact .ub
      | some d =>
        rw [h.look, hd]
        simp only [Res.bind_ok]
        rcases setEmpty_ok h.good hd k t (by simpa using hk) with ⟨ty', ht, hn, w', e, hu⟩ | ⟨hor, e⟩
        · rw [typeOf_eq] at ht; rw [e, ht, hn]
          exact h.upd hd hu _
        · rw [e]
          cases hg : d.get (if t = 1 then Spec.canon k else k) with
          | some en => exact h.same _
          | none =>
            rw [hg, typeOf_eq] at hor
            simp at hor
            rw [hor]
            exact h.same _
  | setIntArray m k d n =>
    show Match (retCode (mapSetIntArray w m k d n)) _
    unfold mapSetIntArray
    simp only [Spec.step]
    rw [keyOk_eq]
    by_cases h0 : n < 0
    · rw [if_pos h0, if_pos (.inl h0)]; exact h.same _
    · rw [if_neg h0]
      by_cases hk : Spec.KeyOk k = false
      · rw [if_pos hk, if_pos (.inr hk)]; exact h.same _
      · rw [if_neg hk, if_neg (c := n < 0 ∨ Spec.KeyOk k = false) (by simp [h0, hk])]
        by_cases hl : n.toNat > d.length
        · rw [if_pos hl, if_pos hl]; exact .ub
        · rw [if_neg hl, if_neg hl]
          refine setArray_match h m _ _ _ ?_
          intro v hv
          obtain ⟨i, -, rfl⟩ := List.mem_map.mp hv
          trivial
  | setFloatArray m k d n =>
    show Match (retCode (mapSetFloatArray w m k d n)) _
    unfold mapSetFloatArray
    simp only [Spec.step]
    rw [keyOk_eq]
    by_cases h0 : n < 0
    · rw [if_pos h0, if_pos (.inl h0)]; exact h.same _
    · rw [if_neg h0]
      by_cases hk : Spec.KeyOk k = false
      · rw [if_pos hk, if_pos (.inr hk)]; exact h.same _
      · rw [if_neg hk, if_neg (c := n < 0 ∨ Spec.KeyOk k = false) (by simp [h0, hk])]
        by_cases hl : n.toNat > d.length
        · rw [if_pos hl, if_pos hl]; exact .ub
        · rw [if_neg hl, if_neg hl]
          refine setArray_match h m _ _ _ ?_
          intro v hv
          obtain ⟨i, -, rfl⟩ := List.mem_map.mp hv
          trivial
  | delete m k => exact delete_match h m k
  | numElements m k => exact numElements_match h m k
  | getType m k => exact getType_match h m k
  | getInt m k i e => exact getInt_match h m k i e
  | getIntSaturated m k i e => exact getIntSat_match h m k i e
  | getFloat m k i e => exact getFloat_match h m k i e
  | getData m k i e => exact getData_match h m k i e
  | getNode m k i e => exact getObj2_match h m k i e _ _
  | getFrame m k i e => exact getObj2_match h m k i e _ _
  | getFunction m k i e => exact getFunction_match h m k i e
  | getIntArray m k e => exact getIntArray_match h m k e
  | getFloatArray m k e => exact getFloatArray_match h m k e
  | getError m => exact getError_match h m

theorem sim_empty : Sim World.empty Spec.State.empty :=
  ⟨wf_empty, rfl, fun m => by simp [Spec.State.empty, dictOf, World.empty, Heap.get]⟩

/-- Agreement of whole histories. -/
theorem run_match {ops : List Op} : ∀ {w : World} {s : Spec.State}, Sim w s →
    (∃ w' s' os, run w ops = .ok (w', os) ∧ Spec.run s ops = .ok (s', os) ∧ Sim w' s') ∨
    (∃ msg, run w ops = .err msg ∧ Spec.run s ops = .err msg) ∨
    (∃ msg, run w ops = .fatal msg ∧ Spec.run s ops = .fatal msg) ∨
    (run w ops = .ub ∧ Spec.run s ops = .ub) := by
  induction ops with
  | nil => intro w s h; exact .inl ⟨w, s, [], rfl, rfl, h⟩
  | cons op t ih =>
    intro w s h
    have hm := step_match h op
    simp only [run, Spec.run]
    generalize step w op = r at hm
    generalize Spec.step s op = q at hm
    cases hm with
    | ok hw hl hs =>
      simp only [Res.bind_ok]
      rcases ih ⟨hw, hl, hs⟩ with ⟨w', s', os, e1, e2, hsim⟩ | ⟨msg, e1, e2⟩ | ⟨msg, e1, e2⟩ | ⟨e1, e2⟩
      · exact .inl ⟨w', s', _, by rw [e1]; rfl, by rw [e2]; rfl, hsim⟩
      · exact .inr (.inl ⟨msg, by rw [e1]; rfl, by rw [e2]; rfl⟩)
      · exact .inr (.inr (.inl ⟨msg, by rw [e1]; rfl, by rw [e2]; rfl⟩))
      · exact .inr (.inr (.inr ⟨by rw [e1]; rfl, by rw [e2]; rfl⟩))
    | err msg => exact .inr (.inl ⟨msg, rfl, rfl⟩)
    | fatal msg => exact .inr (.inr (.inl ⟨msg, rfl, rfl⟩))
    | ub => exact .inr (.inr (.inr ⟨rfl, rfl⟩))

end VS.Map
