import Verif.Map.Lemmas

/-!
# Effect of the map operations on the dictionaries
-/

namespace VS.Map
open VS

/-- What an array address stands for. -/
def lookA (w : World) (a : Nat) : Option Spec.Entry := (w.arrs.get a).map entry

/-- The dictionary a storage represents. -/
def dictSto (w : World) (st : Sto) : Spec.Dict :=
  ⟨st.error, fun k => (find st.data k).bind (lookA w)⟩

/-- The dictionary a map handle represents, `none` for dead handles. -/
def dictOf (w : World) (m : Nat) : Option Spec.Dict :=
  (w.maps.get m).bind fun s => (w.stos.get s).map (dictSto w)

/-- All reference counts are exact. -/
abbrev Good (w : World) : Prop := Wf w none0 none0

theorem eq_of_ite_pos {s t : Nat} (h : 0 < if s = t then 1 else 0) : s = t := by
  by_cases e : s = t
  · exact e
  · simp [e] at h

theorem lookA_ext {w w' : World} {S : Option Nat} (h : Ext w w' S) {a : Nat}
    (ha : ∃ x, w.arrs.get a = some x) (ha' : ∃ x, w'.arrs.get a = some x) :
    lookA w' a = lookA w a := by
  obtain ⟨x, hx⟩ := ha
  obtain ⟨x', hx'⟩ := ha'
  obtain ⟨y, hy, e⟩ := h.arr a x' (Heap.get_lt hx) hx'
  simp [lookA, hx', hy, e]

theorem dictOf_some {w : World} {m : Nat} {d : Spec.Dict} (h : dictOf w m = some d) :
    ∃ s st, w.maps.get m = some s ∧ w.stos.get s = some st ∧ d = dictSto w st := by
  unfold dictOf at h
  cases hm : w.maps.get m with
  | none => rw [hm] at h; simp at h
  | some s =>
    rw [hm] at h
    cases hs : w.stos.get s with
    | none => simp [hs] at h
    | some st => simp [hs] at h; exact ⟨s, st, rfl, hs, h.symm⟩

theorem dictOf_of {w : World} {m s : Nat} {st : Sto} (hm : w.maps.get m = some s)
    (hs : w.stos.get s = some st) : dictOf w m = some (dictSto w st) := by
  simp [dictOf, hm, hs]

theorem dictOf_none {w : World} {ea es : Nat → Nat} (hw : Wf w ea es) {m : Nat} :
    dictOf w m = none ↔ w.maps.get m = none := by
  constructor
  · intro h
    cases hm : w.maps.get m with
    | none => rfl
    | some s =>
      obtain ⟨st, hs⟩ := hw.mapLive m s hm
      rw [dictOf_of hm hs] at h; simp at h
  · intro h; simp [dictOf, h]

theorem dictSto_ext {w w' : World} {S : Option Nat} {ea es ea' es' : Nat → Nat} (h : Ext w w' S)
    (hw : Wf w ea es) (hw' : Wf w' ea' es') {s : Nat} {st st' : Sto}
    (hs : w.stos.get s = some st) (hs' : w'.stos.get s = some st') (hd : st.data = st'.data)
    (he : st.error = st'.error) : dictSto w' st' = dictSto w st := by
  unfold dictSto
  rw [he, hd]
  congr 1
  funext k
  cases hf : find st'.data k with
  | none => rfl
  | some a =>
    simp only [Option.bind_some]
    exact lookA_ext h (hw.entLive s st hs (k, a) (hd ▸ find_mem hf))
      (hw'.entLive s st' hs' (k, a) (find_mem hf))

/-- A map whose pointer and storage were not touched keeps its dictionary. -/
theorem dictOf_ext {w w' : World} {S : Option Nat} {ea es ea' es' : Nat → Nat} (h : Ext w w' S)
    (hw : Wf w ea es) (hw' : Wf w' ea' es') {m : Nat} (hm : w'.maps.get m = w.maps.get m)
    (hS : ∀ s, w.maps.get m = some s → S ≠ some s) : dictOf w' m = dictOf w m := by
  cases hg : w.maps.get m with
  | none => simp [dictOf, hm, hg]
  | some s =>
    obtain ⟨st, hs⟩ := hw.mapLive m s hg
    obtain ⟨st', hs'⟩ := hw'.mapLive m s (hm.trans hg)
    obtain ⟨st0, h0, e1, e2⟩ := h.sto s st' (Heap.get_lt hs) (hS s hg) hs'
    rw [hs] at h0; simp at h0; subst h0
    rw [dictOf_of hg hs, dictOf_of (hm.trans hg) hs', dictSto_ext h hw hw' hs hs' e1 e2]

/-- The outcome of an operation that is supposed to change map `m` to `d` and nothing else. -/
structure Upd (w w' : World) (m : Nat) (d : Spec.Dict) : Prop where
  good : Good w'
  at' : dictOf w' m = some d
  other : ∀ m', m' ≠ m → dictOf w' m' = dictOf w m'
  len : w'.maps.length = w.maps.length

theorem Upd.same {w : World} {m : Nat} {d : Spec.Dict} (hw : Good w) (h : dictOf w m = some d) :
    Upd w w m d := ⟨hw, h, fun _ _ => rfl, rfl⟩

/-- A storage with reference count 1 belongs to one map. -/
theorem sto_unique {w : World} {ea es : Nat → Nat} (hw : Wf w ea es) {m m' s : Nat} {st : Sto}
    (hm : w.maps.get m = some s) (hs : w.stos.get s = some st) (hrc : st.rc = 1) (hne : m' ≠ m) :
    w.maps.get m' ≠ some s := by
  intro hc
  have h1 := hw.stoRc s st hs
  have h2 := Heap.add_le_sumOver (f := fun s' => if s' = s then 1 else 0) (Ne.symm hne) hm hc
  have h3 : mrefs w s = w.maps.sumOver fun s' => if s' = s then 1 else 0 := rfl
  simp at h2
  omega

theorem switchSto_ok {w : World} {ea : Nat → Nat} {m s s' : Nat}
    (hw : Wf w ea (fun t => none0 t + if s' = t then 1 else 0))
    (hm : w.maps.get m = some s) :
    ∃ w', switchSto w m s s' = .ok w' ∧ Wf w' ea none0 ∧ Ext w w' none ∧
      w'.maps.get m = some s' ∧ (∀ m', m' ≠ m → w'.maps.get m' = w.maps.get m') ∧
      w'.maps.length = w.maps.length := by
  have hml := Heap.get_lt hm
  have h1 := putM_wf (w := w) (m := m) (v := some s') hw (es' := fun t => none0 t + if s = t then 1 else 0)
    hml (by
      intro t ht; simp at ht; subst ht
      exact hw.esLive s' (by simp)) (by
      intro t
      have := mrefs_put (w := w) (v := some s') hml t
      rw [hm] at this
      simp [none0] at this ⊢
      omega) (by
      intro t ht
      simp only [none0, Nat.zero_add] at ht
      have ht := eq_of_ite_pos ht
      subst ht
      exact hw.mapLive m s hm)
  obtain ⟨w', e, hw', hx, hmaps⟩ := releaseSto_wf h1.1
  refine ⟨w', e, hw', h1.2.trans hx, ?_, ?_, ?_⟩
  · rw [hmaps]; exact Heap.get_put_self _ hml
  · intro m' hne; rw [hmaps]; exact Heap.get_put_ne _ (Ne.symm hne)
  · rw [hmaps]; simp [putM]

theorem detach_ok {w : World} {ea : Nat → Nat} {m s : Nat} {st : Sto} (hw : Wf w ea none0)
    (hm : w.maps.get m = some s) (hs : w.stos.get s = some st) :
    ∃ w' s' st', detach w m = .ok w' ∧ Wf w' ea none0 ∧ Ext w w' none ∧
      w'.maps.get m = some s' ∧ w'.stos.get s' = some st' ∧ st'.rc = 1 ∧ st'.data = st.data ∧
      st'.error = st.error ∧ (∀ m', m' ≠ m → w'.maps.get m' = w.maps.get m') ∧
      w'.maps.length = w.maps.length := by
  by_cases h1 : st.rc = 1
  · exact ⟨w, s, st, by simp [detach, mapSto, hm, getS, hs, h1], hw, Ext.refl _ _, hm, hs, h1, rfl,
      rfl, fun _ _ => rfl, rfl⟩
  · have hent := hw.entLive s st hs
    obtain ⟨w1, e1, hw1, x1, m1, s1, l1⟩ := addRefs_wf (L := st.data.map (·.2)) hw (by
      intro a ha
      obtain ⟨e, he, h2⟩ := List.mem_map.mp ha
      rw [← h2]; exact hent e he)
    have hw2 := newSto_wf (st := ⟨1, st.data, st.error⟩) (ea' := ea) hw1 rfl (hw.sorted s st hs) (by
      intro e he
      obtain ⟨x, hx⟩ := hent e he
      exact l1 _ x hx) (by intro a; rfl)
    obtain ⟨w3, e3, hw3, x3, hm3, ho3, hl3⟩ := switchSto_ok (w := newSto w1 ⟨1, st.data, st.error⟩)
      (m := m) (s := s) (s' := w1.stos.length) hw2.1
      (by show w1.maps.get m = some s; rw [m1]; exact hm)
    obtain ⟨st', hst'⟩ := hw3.mapLive m _ hm3
    have hnew : (newSto w1 ⟨1, st.data, st.error⟩).stos.get w1.stos.length
        = some ⟨1, st.data, st.error⟩ := Heap.get_alloc_self _ _
    obtain ⟨st0, h0, d0, r0⟩ := x3.sto _ st' (Heap.get_lt hnew) (by simp) hst'
    rw [hnew] at h0; simp at h0; subst h0
    have hrc' := hw3.stoRc _ st' hst'
    have hcount : mrefs w3 w1.stos.length = 1 := by
      have hz : mrefs w w1.stos.length = 0 := by
        refine Heap.sumOver_eq_zero fun m' t hmt => ?_
        by_cases h : t = w1.stos.length
        · obtain ⟨y, hy⟩ := hw.mapLive m' t hmt
          have := Heap.get_lt hy
          rw [← s1] at this; omega
        · simp [h]
      have hp := mrefs_put (w := w) (m := m) (v := some w1.stos.length) (Heap.get_lt hm)
        w1.stos.length
      have hne : s ≠ w1.stos.length := by
        have := Heap.get_lt hs
        rw [← s1] at this; omega
      rw [hm, hz] at hp
      simp [hne] at hp
      unfold switchSto at e3
      have hw3maps : w3.maps = w.maps.put m (some w1.stos.length) := by
        have hes : Wf (putM (newSto w1 ⟨1, st.data, st.error⟩) m (some w1.stos.length)) ea
            (fun t => none0 t + if s = t then 1 else 0) := by
          refine (putM_wf (es := fun t => none0 t + if w1.stos.length = t then 1 else 0)
            hw2.1 ?_ ?_ ?_ ?_).1
          · show m < w1.maps.length; rw [m1]; exact Heap.get_lt hm
          · intro t ht; simp at ht; subst ht; exact ⟨_, hnew⟩
          · intro t
            have := mrefs_put (w := newSto w1 ⟨1, st.data, st.error⟩) (m := m)
              (v := some w1.stos.length)
              (by show m < w1.maps.length; rw [m1]; exact Heap.get_lt hm) t
            have e : (newSto w1 ⟨1, st.data, st.error⟩).maps.get m = some s := by
              show w1.maps.get m = some s; rw [m1]; exact hm
            rw [e] at this
            simp [none0] at this ⊢
            omega
          · intro t ht
            simp only [none0, Nat.zero_add] at ht
            have ht := eq_of_ite_pos ht
            subst ht
            exact ⟨st, by
              show (w1.stos.alloc _).get s = some st
              exact Heap.get_alloc_of_some (by rw [s1]; exact hs)⟩
        obtain ⟨w3', e3', _, _, hmm⟩ := releaseSto_wf hes
        rw [e3'] at e3; simp at e3; subst e3
        rw [hmm]
        show (w1.maps).put m _ = _
        rw [m1]
      unfold mrefs
      rw [hw3maps]
      exact hp
    refine ⟨w3, w1.stos.length, st', ?_, hw3, ?_, hm3, hst', ?_, d0.symm, r0.symm, ?_, ?_⟩
    · simp [detach, mapSto, hm, getS, hs, h1, e1, e3]
    · exact (x1.trans hw2.2).trans x3
    · rw [hrc'.1, hcount]; simp [none0]
    · intro m' hne
      rw [ho3 m' hne]
      show w1.maps.get m' = _
      rw [m1]
    · rw [hl3]
      show w1.maps.length = _
      rw [m1]

theorem storeKey_ok {w : World} {ea es : Nat → Nat} {s a : Nat} {st : Sto} {k : Key}
    (hw : Wf w (fun b => ea b + if a = b then 1 else 0) es) (hs : w.stos.get s = some st) :
    ∃ w', storeKey w s st k a = .ok w' ∧ Wf w' ea es ∧ Ext w w' (some s) ∧ w'.maps = w.maps ∧
      w'.stos.get s = some { st with data := upsert k a st.data } := by
  have hso := hw.sorted s st hs
  have hlive : ∀ e ∈ upsert k a st.data, ∃ x, w.arrs.get e.2 = some x := by
    intro e he
    rcases mem_upsert he with he | he
    · rw [he]; exact hw.eaLive a (by simp)
    · exact hw.entLive s st hs e he
  unfold storeKey
  cases hf : find st.data k with
  | some old =>
    have h1 := putS_wf (st' := { st with data := upsert k a st.data })
      (ea' := fun b => ea b + if old = b then 1 else 0) hw hs rfl (sorted_upsert hso k a) hlive (by
        intro b
        have := refsIn_upsert_old hso hf a b
        simp only
        omega)
    obtain ⟨w', e, hw', hx, hmaps, hstos⟩ := releaseArr_wf h1.1
    refine ⟨w', e, hw', h1.2.trans hx.weaken, hmaps, ?_⟩
    rw [hstos]; exact Heap.get_put_self _ (Heap.get_lt hs)
  | none =>
    have h1 := putS_wf (st' := { st with data := upsert k a st.data }) (ea' := ea) hw hs rfl
      (sorted_upsert hso k a) hlive (by
        intro b
        have := refsIn_upsert_new hf a b
        simp only
        omega)
    exact ⟨_, rfl, h1.1, h1.2, rfl, Heap.get_put_self _ (Heap.get_lt hs)⟩

/-- Dictionary of a storage after one entry was stored. -/
theorem dictSto_upsert {w : World} {st : Sto} (hso : Sorted st.data) (k : Key) (a : Nat) :
    dictSto w { st with data := upsert k a st.data }
      = (dictSto w st).put k (lookA w a) := by
  unfold dictSto Spec.Dict.put
  congr 1
  funext k'
  simp only [find_upsert hso]
  by_cases h : k' = k
  · simp [h]
  · simp [h]

theorem dictSto_erase {w : World} {st : Sto} (hso : Sorted st.data) (k : Key) :
    dictSto w { st with data := eraseKey k st.data } = (dictSto w st).put k none := by
  unfold dictSto Spec.Dict.put
  congr 1
  funext k'
  simp only [find_eraseKey hso]
  by_cases h : k' = k
  · simp [h]
  · simp [h]

/-- Entries alive on both sides of an extension stand for the same. -/
theorem dictSto_congr {w w' : World} {S : Option Nat} (h : Ext w w' S) {st : Sto}
    (h1 : ∀ e ∈ st.data, ∃ x, w.arrs.get e.2 = some x)
    (h2 : ∀ e ∈ st.data, ∃ x, w'.arrs.get e.2 = some x) : dictSto w' st = dictSto w st := by
  unfold dictSto
  congr 1
  funext k
  cases hf : find st.data k with
  | none => rfl
  | some a => exact lookA_ext h (h1 _ (find_mem hf)) (h2 _ (find_mem hf))

theorem dictSto_eq_of {w : World} {st st' : Sto} (hd : st'.data = st.data)
    (he : st'.error = st.error) : dictSto w st' = dictSto w st := by
  unfold dictSto; rw [hd, he]

/-- Gluing: an operation detached `m`, and then changed only the storage of `m`. -/
theorem upd_of {w w1 w2 : World} {ea : Nat → Nat} {m s : Nat} {st : Sto} {d : Spec.Dict}
    (hw : Wf w ea none0) (hw1 : Wf w1 ea none0) (x1 : Ext w w1 none) (hm1 : w1.maps.get m = some s)
    (hs1 : w1.stos.get s = some st) (hrc : st.rc = 1)
    (ho1 : ∀ m', m' ≠ m → w1.maps.get m' = w.maps.get m') (hl1 : w1.maps.length = w.maps.length)
    (hw2 : Good w2) (x2 : Ext w1 w2 (some s)) (hm2 : w2.maps = w1.maps)
    (hd : dictOf w2 m = some d) : Upd w w2 m d := by
  refine ⟨hw2, hd, ?_, by rw [hm2, hl1]⟩
  intro m' hne
  refine (dictOf_ext x2 hw1 hw2 (by rw [hm2]) ?_).trans
    (dictOf_ext x1 hw hw1 (ho1 m' hne) (by simp))
  intro t ht hc
  simp at hc; subst hc
  exact sto_unique hw1 hm1 hs1 hrc hne ht

theorem mapInsert_ok {w : World} {m a : Nat} {d : Spec.Dict} {e : Spec.Entry} (k : Key)
    (hw : Wf w (fun b => none0 b + if a = b then 1 else 0) none0) (hd : dictOf w m = some d)
    (he : lookA w a = some e) :
    ∃ w', mapInsert w m k a = .ok w' ∧ Upd w w' m (d.put k (some e)) := by
  obtain ⟨s, st, hm, hs, rfl⟩ := dictOf_some hd
  obtain ⟨w1, s1, st1, e1, hw1, x1, hm1, hs1, hrc1, hd1, he1, ho1, hl1⟩ := detach_ok hw hm hs
  obtain ⟨w2, e2, hw2, x2, hm2, hs2⟩ := storeKey_ok (k := k) hw1 hs1
  refine ⟨w2, ?_, upd_of hw hw1 x1 hm1 hs1 hrc1 ho1 hl1 hw2 x2 hm2 ?_⟩
  · simp [mapInsert, e1, mapSto, hm1, getS, hs1, e2]
  · have hm2' : w2.maps.get m = some s1 := by rw [hm2]; exact hm1
    rw [dictOf_of hm2' hs2]
    congr 1
    have hso := hw1.sorted s1 st1 hs1
    have hent2 := hw2.entLive s1 _ hs2
    have hent1 : ∀ e ∈ upsert k a st1.data, ∃ x, w1.arrs.get e.2 = some x := by
      intro e he
      rcases mem_upsert he with he | he
      · rw [he]; exact hw1.eaLive a (by simp)
      · exact hw1.entLive s1 st1 hs1 e he
    rw [dictSto_congr x2 hent1 hent2, dictSto_upsert hso]
    congr 1
    · have hent : ∀ e ∈ st.data, ∃ x, w.arrs.get e.2 = some x := hw.entLive s st hs
      have hent' : ∀ e ∈ st.data, ∃ x, w1.arrs.get e.2 = some x := by
        rw [← hd1]; exact hw1.entLive s1 st1 hs1
      rw [dictSto_eq_of hd1 he1]
      exact dictSto_congr x1 hent hent'
    · rw [lookA_ext x1 (hw.eaLive a (by simp)) (hw1.eaLive a (by simp)), he]

/-- Inserting a new array. -/
theorem insertNew_ok {w : World} {m : Nat} {d : Spec.Dict} (k : Key) {x : Arr} (hw : Good w)
    (hd : dictOf w m = some d) (hx : ArrOk x) (hrc : x.rc = 1) :
    ∃ w', mapInsert (newArr w x).1 m k (newArr w x).2 = .ok w' ∧
      Upd w w' m (d.put k (some (entry x))) := by
  have h1 := newArr_wf hw hx hrc
  have hdict : ∀ m', dictOf (newArr w x).1 m' = dictOf w m' := fun m' =>
    dictOf_ext h1.2 hw h1.1 rfl (by simp)
  obtain ⟨w', e, hu⟩ := mapInsert_ok (w := (newArr w x).1) (m := m) (a := w.arrs.length) (e := entry x)
    k h1.1 ((hdict m).trans hd) (by
      have : (w.arrs.alloc x).get w.arrs.length = some x := Heap.get_alloc_self _ _
      simp [lookA, newArr, this])
  exact ⟨w', e, hu.good, hu.at', fun m' hne => (hu.other m' hne).trans (hdict m'), hu.len⟩

theorem mapFind_eq {w : World} {m s : Nat} {st : Sto} (hm : w.maps.get m = some s)
    (hs : w.stos.get s = some st) (k : Key) : mapFind w m k = .ok (find st.data k) := by
  simp [mapFind, mapSto, hm, getS, hs]

theorem dictSto_get {w : World} {st : Sto} {k : Key} :
    (dictSto w st).get k = (find st.data k).bind (lookA w) := rfl

/-- Looking up a key: absent in the dictionary means absent in the storage, present means an
array with that content. -/
theorem find_none_iff {w : World} {ea es : Nat → Nat} (hw : Wf w ea es) {s : Nat} {st : Sto}
    (hs : w.stos.get s = some st) (k : Key) :
    (dictSto w st).get k = none ↔ find st.data k = none := by
  rw [dictSto_get]
  cases hf : find st.data k with
  | none => simp
  | some a =>
    obtain ⟨x, hx⟩ := hw.entLive s st hs _ (find_mem hf)
    simp only [Option.bind_some, lookA]
    simp [hx]

theorem find_some_iff {w : World} {ea es : Nat → Nat} (hw : Wf w ea es) {s : Nat} {st : Sto}
    (hs : w.stos.get s = some st) {k : Key} {e : Spec.Entry} (h : (dictSto w st).get k = some e) :
    ∃ a x, find st.data k = some a ∧ w.arrs.get a = some x ∧ entry x = e ∧ ArrOk x := by
  rw [dictSto_get] at h
  cases hf : find st.data k with
  | none => simp [hf] at h
  | some a =>
    obtain ⟨x, hx⟩ := hw.entLive s st hs _ (find_mem hf)
    rw [hf] at h
    simp only [Option.bind_some, lookA] at h
    simp [hx] at h
    exact ⟨a, x, rfl, hx, h, hw.arrOk a x hx⟩

theorem erase_ok {w : World} {m : Nat} {d : Spec.Dict} (hw : Good w) (hd : dictOf w m = some d)
    (k : Key) :
    ∃ w', mapErase w m k = .ok (w', (d.get k).isSome) ∧ Upd w w' m (d.put k none) := by
  obtain ⟨s, st, hm, hs, rfl⟩ := dictOf_some hd
  cases hk : (dictSto w st).get k with
  | none =>
    have hf := (find_none_iff hw hs k).mp hk
    refine ⟨w, by simp [mapErase, mapFind_eq hm hs, hf], Upd.same hw ?_⟩
    rw [hd]
    congr 1
    unfold Spec.Dict.put
    show (⟨(dictSto w st).err, (dictSto w st).get⟩ : Spec.Dict) = _
    congr 1
    funext k'
    by_cases h : k' = k
    · simp [h, hk]
    · simp [h]
  | some e =>
    obtain ⟨a0, x0, hf, -, -, -⟩ := find_some_iff hw hs hk
    obtain ⟨w1, s1, st1, e1, hw1, x1, hm1, hs1, hrc1, hd1, he1, ho1, hl1⟩ := detach_ok hw hm hs
    have hf1 : find st1.data k = some a0 := by rw [hd1]; exact hf
    have hso := hw1.sorted s1 st1 hs1
    have h2 := putS_wf (st' := { st1 with data := eraseKey k st1.data })
      (ea' := fun b => none0 b + if a0 = b then 1 else 0) hw1 hs1 rfl (sorted_eraseKey hso k)
      (fun e he => hw1.entLive s1 st1 hs1 e (mem_eraseKey he)) (by
        intro b
        have := refsIn_eraseKey hf1 b
        simp only
        omega)
    obtain ⟨w2, e2, hw2, x2, hm2, hstos⟩ := releaseArr_wf h2.1
    have hs2 : w2.stos.get s1 = some { st1 with data := eraseKey k st1.data } := by
      rw [hstos]; exact Heap.get_put_self _ (Heap.get_lt hs1)
    refine ⟨w2, ?_, upd_of hw hw1 x1 hm1 hs1 hrc1 ho1 hl1 hw2 (h2.2.trans x2.weaken) hm2 ?_⟩
    · simp [mapErase, mapFind_eq hm hs, hf, e1, mapSto, hm1, getS, hs1, hf1, e2]
    · have hm2' : w2.maps.get m = some s1 := by rw [hm2]; exact hm1
      rw [dictOf_of hm2' hs2]
      congr 1
      have hent2 := hw2.entLive s1 _ hs2
      have hent1 : ∀ e ∈ eraseKey k st1.data, ∃ x, w1.arrs.get e.2 = some x :=
        fun e he => hw1.entLive s1 st1 hs1 e (mem_eraseKey he)
      rw [dictSto_congr (h2.2.trans x2.weaken) hent1 hent2, dictSto_erase hso]
      congr 1
      have hent : ∀ e ∈ st.data, ∃ x, w.arrs.get e.2 = some x := hw.entLive s st hs
      have hent' : ∀ e ∈ st.data, ∃ x, w1.arrs.get e.2 = some x := by
        rw [← hd1]; exact hw1.entLive s1 st1 hs1
      rw [dictSto_eq_of hd1 he1]
      exact dictSto_congr x1 hent hent'

/-- Changing an array only one entry refers to. -/
theorem putA_wf {w : World} {ea es : Nat → Nat} (hw : Wf w ea es) {a : Nat} {x y : Arr}
    (hx : w.arrs.get a = some x) (hrc : y.rc = x.rc) (hy : ArrOk y) : Wf (putA w a y) ea es := by
  have hl := Heap.get_lt hx
  have back : ∀ b z, (w.arrs.put a (some y)).get b = some z →
      (b = a ∧ z = y) ∨ (a ≠ b ∧ w.arrs.get b = some z) := by
    intro b z hz
    by_cases hb : a = b
    · subst hb; rw [Heap.get_put_self _ hl] at hz; simp at hz; exact .inl ⟨rfl, hz.symm⟩
    · rw [Heap.get_put_ne _ hb] at hz; exact .inr ⟨hb, hz⟩
  have live : ∀ b, (∃ z, w.arrs.get b = some z) → ∃ z, (w.arrs.put a (some y)).get b = some z := by
    intro b ⟨z, hz⟩
    by_cases hb : a = b
    · subst hb; exact ⟨_, Heap.get_put_self _ hl⟩
    · exact ⟨z, by rw [Heap.get_put_ne _ hb]; exact hz⟩
  refine ⟨hw.mapLive, hw.stoRc, hw.sorted, ?_, ?_, ?_, ?_, hw.esLive⟩
  · intro s st hst e he; exact live _ (hw.entLive s st hst e he)
  · intro b z hz
    have e : arefs (putA w a y) b = arefs w b := rfl
    rw [e]
    rcases back b z hz with ⟨rfl, rfl⟩ | ⟨_, hz⟩
    · have := hw.arrRc _ x hx; omega
    · exact hw.arrRc b z hz
  · intro b z hz
    rcases back b z hz with ⟨rfl, rfl⟩ | ⟨_, hz⟩
    · exact hy
    · exact hw.arrOk b z hz
  · intro b hb; exact live _ (hw.eaLive b hb)

/-- An array with reference count 1 is referred to by one entry of one storage. -/
theorem arr_unique {w : World} {ea es : Nat → Nat} (hw : Wf w ea es) {a s s' : Nat} {x : Arr}
    {st st' : Sto} {k k' : Key} (hx : w.arrs.get a = some x) (hrc : x.rc = 1)
    (hs : w.stos.get s = some st) (hs' : w.stos.get s' = some st') (hk : find st.data k = some a)
    (hk' : find st'.data k' = some a) : s' = s ∧ k' = k := by
  have h1 := hw.arrRc a x hx
  have hsum : arefs w a = w.stos.sumOver fun st => refsIn st.data a := rfl
  have p1 := refsIn_pos_of_mem (find_mem hk)
  have p2 := refsIn_pos_of_mem (find_mem hk')
  simp only at p1 p2
  by_cases hss : s = s'
  · subst hss
    rw [hs] at hs'; simp at hs'; subst hs'
    refine ⟨rfl, ?_⟩
    refine Classical.byContradiction fun hne => ?_
    have h2 := Heap.le_sumOver (f := fun st : Sto => refsIn st.data a) hs
    have h3 := refsIn_eraseKey hk a
    simp at h3
    have hf : find (eraseKey k st.data) k' = some a := by
      rw [find_eraseKey (hw.sorted s st hs), if_neg hne, hk']
    have h4 := refsIn_pos_of_mem (find_mem hf)
    simp only at h4 h2
    omega
  · exfalso
    have h2 := Heap.add_le_sumOver (f := fun st : Sto => refsIn st.data a) hss hs hs'
    omega

theorem uniqueArr_ok {w : World} {s a : Nat} {st : Sto} {x : Arr} {k : Key} (hw : Good w)
    (hs : w.stos.get s = some st) (hk : find st.data k = some a) (hx : w.arrs.get a = some x) :
    ∃ w' a' x' st', uniqueArr w s st k a = .ok (w', a') ∧ Good w' ∧ Ext w w' (some s) ∧
      w'.maps = w.maps ∧ w'.stos.get s = some st' ∧ st'.rc = st.rc ∧ find st'.data k = some a' ∧
      w'.arrs.get a' = some x' ∧ x'.rc = 1 ∧ entry x' = entry x ∧ ArrOk x' ∧
      dictSto w' st' = dictSto w st := by
  have hok := hw.arrOk a x hx
  by_cases h1 : x.rc = 1
  · exact ⟨w, a, x, st, by simp [uniqueArr, getA, hx, h1], hw, Ext.refl _ _, rfl, hs, rfl, hk, hx, h1,
      rfl, hok, rfl⟩
  · have hso := hw.sorted s st hs
    have hw1 := newArr_wf hw (arrOk_copy hok) rfl
    have hs1 : (newArr w x.copy).1.stos.get s = some st := hs
    have hgetnew : (newArr w x.copy).1.arrs.get w.arrs.length = some x.copy :=
      Heap.get_alloc_self _ _
    have hlive : ∀ e ∈ upsert k w.arrs.length st.data,
        ∃ x', (newArr w x.copy).1.arrs.get e.2 = some x' := by
      intro e he
      rcases mem_upsert he with he | he
      · rw [he]; exact ⟨_, hgetnew⟩
      · exact hw1.1.entLive s st hs1 e he
    have hw2 := putS_wf (st' := { st with data := upsert k w.arrs.length st.data })
      (ea' := fun b => none0 b + if a = b then 1 else 0) hw1.1 hs1 rfl
      (sorted_upsert hso k _) hlive (by
        intro b
        have := refsIn_upsert_old hso hk w.arrs.length b
        simp only
        omega)
    obtain ⟨w3, e3, hw3, x3, hm3, hstos3⟩ := releaseArr_wf hw2.1
    have hs3 : w3.stos.get s = some { st with data := upsert k w.arrs.length st.data } := by
      rw [hstos3]; exact Heap.get_put_self _ (Heap.get_lt hs1)
    have hf3 : find (upsert k w.arrs.length st.data) k = some w.arrs.length := by
      rw [find_upsert hso]; simp
    obtain ⟨x', hx'⟩ := hw3.entLive s _ hs3 _ (find_mem hf3)
    simp only at hx'
    have xt : Ext (newArr w x.copy).1 w3 (some s) := hw2.2.trans x3.weaken
    obtain ⟨x0, h0, e0⟩ := xt.arr _ x' (Heap.get_lt hgetnew) hx'
    rw [hgetnew] at h0; simp at h0; subst h0
    have hent' : entry x' = entry x := by rw [← e0, entry_copy hok]
    refine ⟨w3, w.arrs.length, x', _, ?_, hw3, hw1.2.weaken.trans xt, hm3, hs3, rfl, hf3, hx', ?_,
      hent', hw3.arrOk _ _ hx', ?_⟩
    · simp only [uniqueArr, getA, hx, Res.bind_ok]
      rw [if_neg h1]
      have : (newArr w x.copy).2 = w.arrs.length := rfl
      simp only [this]
      rw [e3]; rfl
    · have hrc := hw3.arrRc _ x' hx'
      have hc : arefs w3 w.arrs.length = 1 := by
        have hz : arefs w w.arrs.length = 0 := by
          refine Heap.sumOver_eq_zero fun s' st' hst' => ?_
          refine Classical.byContradiction fun hc => ?_
          obtain ⟨k', hk'⟩ := mem_of_refsIn_pos (Nat.pos_of_ne_zero hc)
          obtain ⟨y, hy⟩ := hw.entLive s' st' hst' _ hk'
          have := Heap.get_lt hy
          simp at this
        have hp := Heap.sumOver_put (fun st : Sto => refsIn st.data w.arrs.length) w.stos s
          (some { st with data := upsert k w.arrs.length st.data }) (Heap.get_lt hs)
        rw [hs] at hp
        simp at hp
        have hu := refsIn_upsert_old hso hk w.arrs.length w.arrs.length
        have hane : a ≠ w.arrs.length := Nat.ne_of_lt (Heap.get_lt hx)
        simp [hane] at hu
        have e : arefs w3 w.arrs.length = Heap.sumOver (fun st : Sto => refsIn st.data w.arrs.length)
            (Heap.put w.stos s (some { st with data := upsert k w.arrs.length st.data })) := by
          unfold arefs; rw [hstos3]; rfl
        have e2 : arefs w w.arrs.length
          = Heap.sumOver (fun st : Sto => refsIn st.data w.arrs.length) w.stos := rfl
        omega
      rw [hrc.1, hc]; rfl
    · rw [dictSto_congr xt hlive (hw3.entLive s _ hs3), dictSto_upsert hso]
      have h4 : dictSto (newArr w x.copy).1 st = dictSto w st :=
        dictSto_congr hw1.2 (hw.entLive s st hs) (hw1.1.entLive s st hs1)
      rw [h4]
      have h5 : lookA (newArr w x.copy).1 w.arrs.length = some (entry x) := by
        unfold lookA; rw [hgetnew]; simp [entry_copy hok]
      rw [h5]
      show (⟨_, _⟩ : Spec.Dict) = ⟨(dictSto w st).err, (dictSto w st).get⟩
      congr 1
      funext k'
      by_cases h : k' = k
      · subst h
        simp [dictSto, hk, lookA, hx]
      · simp [h]

theorem append_ok {w : World} {m : Nat} {d : Spec.Dict} {k : Key} {ty : PType} {l : List Val}
    (hw : Good w) (hd : dictOf w m = some d) (hk : d.get k = some (ty, l)) {v : Val}
    (hf : Spec.Fits ty v) :
    ∃ w', appendExisting w m k v = .ok (w', true) ∧
      Upd w w' m (d.put k (some (ty, l ++ [v]))) := by
  obtain ⟨s, st, hm, hs, rfl⟩ := dictOf_some hd
  obtain ⟨w1, s1, st1, e1, hw1, x1, hm1, hs1, hrc1, hd1, he1, ho1, hl1⟩ := detach_ok hw hm hs
  have hdict1 : dictSto w1 st1 = dictSto w st := by
    rw [dictSto_eq_of hd1 he1]
    exact dictSto_congr x1 (hw.entLive s st hs) (by rw [← hd1]; exact hw1.entLive s1 st1 hs1)
  obtain ⟨a, x, hfa, hxa, hen, hok⟩ := find_some_iff hw1 hs1 (hdict1 ▸ hk)
  obtain ⟨w2, a2, x2', st2, e2, hw2, x2, hm2, hs2, hrc2, hf2, hx2, hr2, he2, hok2, hdict2⟩ :=
    uniqueArr_ok hw1 hs1 hfa hxa
  have hty : x2'.ty = ty := by
    have := he2.trans hen
    simp [entry] at this; exact this.1
  have hcon : contents x2' = l := by
    have := he2.trans hen
    simp [entry] at this; exact this.2
  obtain ⟨y, ey, hyrc, hyty, hycon, hyok⟩ := push_ok hok2 v (by rw [hty]; exact hf)
  have hw3 := putA_wf hw2 hx2 hyrc hyok
  have hm2' : w2.maps.get m = some s1 := by rw [hm2]; exact hm1
  have hl2 := Heap.get_lt hx2
  refine ⟨putA w2 a2 y, ?_, ?_⟩
  · simp [appendExisting, detachKey, e1, mapSto, hm1, getS, hs1, hfa, e2, getA, hx2, ey]
  · have hlook : ∀ b, b ≠ a2 → lookA (putA w2 a2 y) b = lookA w2 b := by
      intro b hb
      unfold lookA putA
      simp only
      rw [Heap.get_put_ne _ (Ne.symm hb)]
    have hlook2 : lookA (putA w2 a2 y) a2 = some (ty, l ++ [v]) := by
      unfold lookA putA
      simp only
      rw [Heap.get_put_self _ hl2]
      simp [entry, hyty, hty, hycon, hcon]
    refine ⟨hw3, ?_, ?_, ?_⟩
    · rw [dictOf_of (w := putA w2 a2 y) hm2' hs2]
      congr 1
      rw [← hdict1, ← hdict2]
      unfold dictSto Spec.Dict.put
      congr 1
      funext k'
      by_cases h : k' = k
      · subst h; simp [hf2, hlook2]
      · simp [h]
        cases hfk : find st2.data k' with
        | none => rfl
        | some b =>
          simp only [Option.bind_some]
          refine hlook b ?_
          intro hc; subst hc
          exact h (arr_unique hw2 hx2 hr2 hs2 hs2 hf2 hfk).2
    · intro m' hne
      have h1 : dictOf w2 m' = dictOf w m' := by
        refine (dictOf_ext x2 hw1 hw2 (by rw [hm2]) ?_).trans
          (dictOf_ext x1 hw hw1 (ho1 m' hne) (by simp))
        intro t ht hc
        simp at hc; subst hc
        exact sto_unique hw1 hm1 hs1 hrc1 hne ht
      rw [← h1]
      cases hg : w2.maps.get m' with
      | none => simp [dictOf, putA, hg]
      | some t =>
        obtain ⟨stt, hst⟩ := hw2.mapLive m' t hg
        rw [dictOf_of hg hst, dictOf_of (w := putA w2 a2 y) hg hst]
        congr 1
        unfold dictSto
        congr 1
        funext k'
        cases hfk : find stt.data k' with
        | none => rfl
        | some b =>
          simp only [Option.bind_some]
          refine hlook b ?_
          intro hc; subst hc
          have := (arr_unique hw2 hx2 hr2 hs2 hst hf2 hfk).1
          subst this
          exact sto_unique hw2 hm2' hs2 (hrc2.trans hrc1) hne hg
    · show w2.maps.length = _; rw [hm2, hl1]

theorem copyEntry_ok {w : World} {s a : Nat} {st : Sto} {e : Spec.Entry} (k : Key) (hw : Good w)
    (hs : w.stos.get s = some st) (he : lookA w a = some e)
    (ha : ∃ t stt, t ≠ s ∧ w.stos.get t = some stt ∧ ∃ k', (k', a) ∈ stt.data) :
    ∃ w' st', copyEntry w s k a = .ok w' ∧ Good w' ∧ Ext w w' (some s) ∧ w'.maps = w.maps ∧
      w'.stos.get s = some st' ∧ st'.rc = st.rc ∧
      dictSto w' st' = (dictSto w st).put k (some e) ∧
      (∀ t stt, t ≠ s → w.stos.get t = some stt → w'.stos.get t = some stt) := by
  obtain ⟨t, stt, hts, htt, k0, hk0⟩ := ha
  have hso := hw.sorted s st hs
  -- the state after the old array has been dropped
  have step1 : ∃ w1 st1, dropKey w s st k = .ok w1 ∧ Good w1 ∧ Ext w w1 (some s) ∧ w1.maps = w.maps ∧
        w1.stos.get s = some st1 ∧ st1 = { st with data := eraseKey k st.data } ∧
        (∀ t stt, t ≠ s → w.stos.get t = some stt → w1.stos.get t = some stt) := by
    unfold dropKey
    cases hf : find st.data k with
    | none =>
      refine ⟨w, st, rfl, hw, Ext.refl _ _, rfl, hs, ?_, fun _ _ _ h => h⟩
      have : ∀ l : List (Key × Nat), find l k = none → eraseKey k l = l := by
        intro l
        induction l with
        | nil => intro _; rfl
        | cons e t ih =>
          obtain ⟨k1, a1⟩ := e
          intro h
          simp only [find] at h
          have h2 : ¬ k1 = k := fun e => by simp [e] at h
          rw [if_neg h2] at h
          simp only [eraseKey]
          rw [if_neg h2, ih h]
      rw [this _ hf]
    | some old =>
      have h2 := putS_wf (st' := { st with data := eraseKey k st.data })
        (ea' := fun b => none0 b + if old = b then 1 else 0) hw hs rfl (sorted_eraseKey hso k)
        (fun e he => hw.entLive s st hs e (mem_eraseKey he)) (by
          intro b
          have := refsIn_eraseKey hf b
          simp only
          omega)
      obtain ⟨w2, e2, hw2, x2, hm2, hstos⟩ := releaseArr_wf h2.1
      refine ⟨w2, _, e2, hw2, h2.2.trans x2.weaken, hm2, ?_, rfl, ?_⟩
      · rw [hstos]; exact Heap.get_put_self _ (Heap.get_lt hs)
      · intro t stt hne ht
        rw [hstos]
        show (w.stos.put s _).get t = _
        rw [Heap.get_put_ne _ (Ne.symm hne)]; exact ht
  obtain ⟨w1, st1, e1, hw1, x1, hm1, hs1, hst1, hoth1⟩ := step1
  subst hst1
  have ha1 : ∃ x, w1.arrs.get a = some x := hw1.entLive t stt (hoth1 t stt hts htt) _ hk0
  obtain ⟨w2, e2, hw2, x2, hm2, hstos2⟩ := addRefArr_wf hw1 ha1
  have hs2 : w2.stos.get s = some { st with data := eraseKey k st.data } := by
    rw [hstos2]; exact hs1
  have hso2 : Sorted (eraseKey k st.data) := sorted_eraseKey hso k
  have hfe : find (eraseKey k st.data) k = none := by rw [find_eraseKey hso]; simp
  have hlive2 : ∀ e ∈ upsert k a (eraseKey k st.data), ∃ x, w2.arrs.get e.2 = some x := by
    intro e he
    rcases mem_upsert he with he | he
    · rw [he]; exact hw2.eaLive a (by simp)
    · exact hw2.entLive s _ hs2 e he
  have h3 := putS_wf (st' := { st with data := upsert k a (eraseKey k st.data) }) (ea' := none0)
    hw2 hs2 rfl (sorted_upsert hso2 k a) hlive2 (by
      intro b
      have := refsIn_upsert_new hfe a b
      simp only
      omega)
  have hs3 : (putS w2 s { st with data := upsert k a (eraseKey k st.data) }).stos.get s
      = some { st with data := upsert k a (eraseKey k st.data) } :=
    Heap.get_put_self _ (Heap.get_lt hs2)
  refine ⟨_, { st with data := upsert k a (eraseKey k st.data) }, ?_, h3.1,
    (x1.trans x2.weaken).trans h3.2, hm2.trans hm1, hs3, rfl, ?_, ?_⟩
  · unfold copyEntry
    have g0 : getS w s = .ok st := by simp [getS, hs]
    have g2 : getS w2 s = .ok { st with data := eraseKey k st.data } := by simp [getS, hs2]
    rw [g0, Res.bind_ok, e1, Res.bind_ok, e2, Res.bind_ok, g2, Res.bind_ok]
  · have hax : ∃ x, w.arrs.get a = some x := hw.entLive t stt htt _ hk0
    have hcalc : dictSto (putS w2 s { st with data := upsert k a (eraseKey k st.data) })
        { st with data := upsert k a (eraseKey k st.data) }
        = dictSto w2 { st with data := upsert k a (eraseKey k st.data) } := rfl
    have h5 := dictSto_upsert (w := w2) (st := { st with data := eraseKey k st.data }) hso2 k a
    have h6 : dictSto w2 { st with data := eraseKey k st.data }
        = dictSto w { st with data := eraseKey k st.data } :=
      dictSto_congr (x1.trans x2.weaken)
        (fun e he => hw.entLive s st hs e (mem_eraseKey he)) (hw2.entLive s _ hs2)
    have h7 : lookA w2 a = some e := by
      rw [lookA_ext (x1.trans x2.weaken) hax (hw2.eaLive a (by simp)), he]
    rw [hcalc]
    refine h5.trans ?_
    rw [h6, h7, dictSto_erase hso]
    unfold Spec.Dict.put
    congr 1
    funext k'
    by_cases h : k' = k <;> simp [h]
  · intro t' stt' hne ht'
    show (w2.stos.put s _).get t' = _
    rw [Heap.get_put_ne _ (Ne.symm hne), hstos2]
    exact hoth1 t' stt' hne ht'

/-- Putting the entries of a list one after the other. -/
def putAll (w : World) (d : Spec.Dict) (l : List (Key × Nat)) : Spec.Dict :=
  l.foldl (fun d e => d.put e.1 (lookA w e.2)) d

theorem putAll_get {w : World} {l : List (Key × Nat)} (hl : Sorted l) : ∀ (d : Spec.Dict) (k : Key),
    (∀ e ∈ l, ∃ x, w.arrs.get e.2 = some x) →
    (putAll w d l).get k = match (find l k).bind (lookA w) with
      | some e => some e
      | none => d.get k := by
  induction l with
  | nil => intro d k _; rfl
  | cons e t ih =>
    obtain ⟨k1, a1⟩ := e
    intro d k hlive
    have hl' := List.pairwise_cons.mp hl
    have h1 := ih hl'.2 (d.put k1 (lookA w a1)) k (fun e he => hlive e (by simp [he]))
    have h2 : putAll w d ((k1, a1) :: t) = putAll w (d.put k1 (lookA w a1)) t := rfl
    rw [h2, h1]
    simp only [find]
    by_cases h : k1 = k
    · subst h
      rw [find_none_of_lt (fun e he => hl'.1 e he)]
      obtain ⟨x, hx⟩ := hlive (k1, a1) (by simp)
      simp only at hx
      simp [lookA, hx, Spec.Dict.put]
    · simp only [if_neg h]
      have : (d.put k1 (lookA w a1)).get k = d.get k := by
        simp [Spec.Dict.put, Ne.symm h]
      rw [this]

theorem putAll_err (w : World) (l : List (Key × Nat)) : ∀ d : Spec.Dict,
    (putAll w d l).err = d.err := by
  induction l with
  | nil => intro d; rfl
  | cons e t ih => intro d; exact ih _

theorem putAll_congr {w w' : World} (l : List (Key × Nat)) (h : ∀ e ∈ l, lookA w' e.2 = lookA w e.2) :
    ∀ d : Spec.Dict, putAll w' d l = putAll w d l := by
  induction l with
  | nil => intro d; rfl
  | cons e t ih =>
    intro d
    show putAll w' (d.put e.1 (lookA w' e.2)) t = putAll w (d.put e.1 (lookA w e.2)) t
    rw [h e (by simp)]
    exact ih (fun e he => h e (by simp [he])) _

theorem copyLoop_ok {s t : Nat} {stt : Sto} (hts : t ≠ s) {L : List (Key × Nat)} :
    ∀ {w : World} {st : Sto}, Good w → w.stos.get s = some st → w.stos.get t = some stt →
    (∀ e ∈ L, e ∈ stt.data) →
    ∃ w' st', copyLoop w s L = .ok w' ∧ Good w' ∧ Ext w w' (some s) ∧ w'.maps = w.maps ∧
      w'.stos.get s = some st' ∧ dictSto w' st' = putAll w (dictSto w st) L := by
  induction L with
  | nil =>
    intro w st hw hs _ _
    exact ⟨w, st, rfl, hw, Ext.refl _ _, rfl, hs, rfl⟩
  | cons e tl ih =>
    obtain ⟨k, a⟩ := e
    intro w st hw hs ht hsub
    have hmem : (k, a) ∈ stt.data := hsub _ (by simp)
    obtain ⟨x, hx⟩ := hw.entLive t stt ht _ hmem
    simp only at hx
    have hlook : lookA w a = some (entry x) := by simp [lookA, hx]
    obtain ⟨w1, st1, e1, hw1, x1, hm1, hs1, hrc1, hd1, ho1⟩ := copyEntry_ok k hw hs hlook
      ⟨t, stt, hts, ht, k, hmem⟩
    have ht1 := ho1 t stt hts ht
    obtain ⟨w2, st2, e2, hw2, x2, hm2, hs2, hd2⟩ := ih hw1 hs1 ht1
      (fun e he => hsub e (by simp [he]))
    refine ⟨w2, st2, ?_, hw2, x1.trans x2, hm2.trans hm1, hs2, ?_⟩
    · simp only [copyLoop, e1, Res.bind_ok, e2]
    · rw [hd2, hd1]
      show _ = putAll w ((dictSto w st).put k (lookA w a)) tl
      rw [hlook]
      refine putAll_congr tl (fun e he => ?_) _
      have hmem' := hsub e (by simp [he])
      exact lookA_ext x1 (hw.entLive t stt ht e hmem') (hw1.entLive t stt ht1 e hmem')

theorem copy_ok {w : World} {dst src : Nat} {d e : Spec.Dict} (hw : Good w) (hne : src ≠ dst)
    (hd : dictOf w dst = some d) (he : dictOf w src = some e) :
    ∃ w', mapCopy w dst src = .ok w' ∧ Upd w w' dst (d.merge e) := by
  obtain ⟨s, st, hm, hs, rfl⟩ := dictOf_some hd
  obtain ⟨w1, s1, st1, e1, hw1, x1, hm1, hs1, hrc1, hd1, he1, ho1, hl1⟩ := detach_ok hw hm hs
  have hsrc : dictOf w1 src = some e := by
    rw [dictOf_ext x1 hw hw1 (ho1 src hne) (by simp), he]
  obtain ⟨t, stt, hmt, hst, rfl⟩ := dictOf_some hsrc
  have hts : t ≠ s1 := by
    intro hc; subst hc
    exact sto_unique hw1 hm1 hs1 hrc1 hne hmt
  obtain ⟨w2, st2, e2, hw2, x2, hm2, hs2, hd2⟩ := copyLoop_ok hts (L := stt.data) hw1 hs1 hst
    (fun e he => he)
  refine ⟨w2, ?_, upd_of hw hw1 x1 hm1 hs1 hrc1 ho1 hl1 hw2 x2 hm2 ?_⟩
  · unfold mapCopy
    rw [if_neg hne, e1]
    simp [mapSto, hmt, hm1, getS, hst, e2]
  · have hm2' : w2.maps.get dst = some s1 := by rw [hm2]; exact hm1
    rw [dictOf_of hm2' hs2, hd2]
    congr 1
    have hdict1 : dictSto w1 st1 = dictSto w st := by
      rw [dictSto_eq_of hd1 he1]
      exact dictSto_congr x1 (hw.entLive s st hs) (by rw [← hd1]; exact hw1.entLive s1 st1 hs1)
    rw [hdict1]
    have hg := fun k => putAll_get (hw1.sorted t stt hst) (dictSto w st) k (hw1.entLive t stt hst)
    have herr := putAll_err w1 stt.data (dictSto w st)
    unfold Spec.Dict.merge
    show (⟨(putAll w1 (dictSto w st) stt.data).err, (putAll w1 (dictSto w st) stt.data).get⟩
      : Spec.Dict) = _
    congr 1
    funext k
    exact hg k

theorem dictSto_nil (w : World) (rc : Nat) (b : Bool) : dictSto w ⟨rc, [], b⟩ = ⟨b, fun _ => none⟩ :=
  rfl

theorem clear_ok' {w : World} {m : Nat} {d : Spec.Dict} (hw : Good w) (hd : dictOf w m = some d) :
    ∃ w' s' st', mapClear w m = .ok w' ∧ Upd w w' m Spec.Dict.empty ∧ w'.maps.get m = some s' ∧
      w'.stos.get s' = some st' ∧ st'.rc = 1 ∧ st'.data = [] := by
  obtain ⟨s, st, hm, hs, rfl⟩ := dictOf_some hd
  by_cases h1 : st.rc = 1
  · have h2 := putS_wf (st' := { st with data := [], error := false })
      (ea' := fun b => none0 b + (st.data.map (·.2)).count b) hw hs rfl List.Pairwise.nil
      (by simp) (by intro a; simp [refsIn])
    obtain ⟨w2, e2, hw2, x2, hm2, hstos2⟩ := releases_wf h2.1
    have hm2' : w2.maps.get m = some s := by rw [hm2]; exact hm
    have hs2 : w2.stos.get s = some { st with data := [], error := false } := by
      rw [hstos2]; exact Heap.get_put_self _ (Heap.get_lt hs)
    refine ⟨w2, s, { st with data := [], error := false }, ?_, ?_, hm2', hs2, h1, rfl⟩
    · simp [mapClear, mapSto, hm, getS, hs, h1]
      rw [h1] at e2; exact e2
    · refine upd_of hw hw (Ext.refl _ _) hm hs h1 (fun _ _ => rfl) rfl hw2 (h2.2.trans x2.weaken) hm2 ?_
      rw [dictOf_of hm2' hs2]
      rfl
  · have hw1 := newSto_wf (st := ⟨1, [], false⟩) (ea' := none0) hw rfl List.Pairwise.nil (by simp)
      (by intro a; rfl)
    obtain ⟨w3, e3, hw3, x3, hm3, ho3, hl3⟩ := switchSto_ok (w := newSto w ⟨1, [], false⟩)
      (m := m) (s := s) (s' := w.stos.length) hw1.1 hm
    obtain ⟨st', hst'⟩ := hw3.mapLive m _ hm3
    have hnew : (newSto w ⟨1, [], false⟩).stos.get w.stos.length = some ⟨1, [], false⟩ :=
      Heap.get_alloc_self _ _
    obtain ⟨st0, h0, d0, r0⟩ := x3.sto _ st' (Heap.get_lt hnew) (by simp) hst'
    rw [hnew] at h0; simp at h0; subst h0
    have hother : ∀ m', m' ≠ m → dictOf w3 m' = dictOf w m' := by
      intro m' hne
      refine dictOf_ext (hw1.2.trans x3) hw hw3 ?_ (by simp)
      rw [ho3 m' hne]; rfl
    refine ⟨w3, _, st', ?_, ⟨hw3, ?_, hother, by rw [hl3]; rfl⟩, hm3, hst', ?_, d0.symm⟩
    · simp [mapClear, mapSto, hm, getS, hs, h1, e3]
    · rw [dictOf_of hm3 hst']
      congr 1
      rw [show st' = ⟨st'.rc, st'.data, st'.error⟩ from rfl, ← d0, ← r0]
      rfl
    · have hrc := hw3.stoRc _ st' hst'
      -- only `m` points to the new storage
      have hc : mrefs w3 w.stos.length = 1 := by
        have hge := Heap.le_sumOver (f := fun s' => if s' = w.stos.length then 1 else 0) hm3
        have hz : ∀ m', m' ≠ m → w3.maps.get m' ≠ some w.stos.length := by
          intro m' hne hc
          rw [ho3 m' hne] at hc
          obtain ⟨y, hy⟩ := hw.mapLive m' _ hc
          have := Heap.get_lt hy
          omega
        have hp := Heap.sumOver_put (fun s' => if s' = w.stos.length then 1 else 0) w3.maps m none
          (Heap.get_lt hm3)
        rw [hm3] at hp
        have hz2 : Heap.sumOver (fun s' => if s' = w.stos.length then 1 else 0)
            (w3.maps.put m none) = 0 := by
          refine Heap.sumOver_eq_zero fun i y hy => ?_
          by_cases hi : m = i
          · subst hi; rw [Heap.get_put_self _ (Heap.get_lt hm3)] at hy; simp at hy
          · rw [Heap.get_put_ne _ hi] at hy
            have := hz i (Ne.symm hi)
            rw [hy] at this
            simp at this
            simp [this]
        rw [hz2] at hp
        simp at hp
        exact hp.symm
      rw [hrc.1, hc]; rfl

theorem clear_ok {w : World} {m : Nat} {d : Spec.Dict} (hw : Good w) (hd : dictOf w m = some d) :
    ∃ w', mapClear w m = .ok w' ∧ Upd w w' m Spec.Dict.empty := by
  obtain ⟨w', _, _, e, hu, _⟩ := clear_ok' hw hd
  exact ⟨w', e, hu⟩

theorem setError_ok {w : World} {m : Nat} {d : Spec.Dict} (hw : Good w) (hd : dictOf w m = some d)
    (msg : List Nat) :
    ∃ w', mapSetError w m msg = .ok w' ∧ Upd w w' m (Spec.Dict.error msg) := by
  obtain ⟨w1, s1, st1, e1, hu1, hm1, hs1, hrc1, hd1⟩ := clear_ok' hw hd
  obtain ⟨y, ey, hyrc, hyty, hycon, hyok⟩ := push_ok (arrOk_new .data) (.data 1 msg) trivial
  have hycon' : contents y = [.data 1 msg] := by
    rw [hycon]; simp [Arr.new, contents]
  have hw2 := newArr_wf hu1.good hyok hyrc
  have hs2 : (newArr w1 y).1.stos.get s1 = some st1 := hs1
  have hgetnew : (newArr w1 y).1.arrs.get w1.arrs.length = some y := Heap.get_alloc_self _ _
  have h3 := putS_wf (st' := { st1 with data := upsert "_Error" w1.arrs.length st1.data, error := true })
    (ea' := none0) hw2.1 hs2 rfl (sorted_upsert (hu1.good.sorted s1 st1 hs1) _ _) (by
      intro e he
      rcases mem_upsert he with he | he
      · rw [he]; exact ⟨_, hgetnew⟩
      · rw [hd1] at he; simp at he) (by
      intro b
      have := refsIn_upsert_new (l := st1.data) (k := "_Error") (by rw [hd1]; rfl) w1.arrs.length b
      simp only
      omega)
  have hs3 : (putS (newArr w1 y).1 s1
      { st1 with data := upsert "_Error" w1.arrs.length st1.data, error := true }).stos.get s1
      = some { st1 with data := upsert "_Error" w1.arrs.length st1.data, error := true } :=
    Heap.get_put_self _ (Heap.get_lt hs2)
  have hu2 : Upd w1 (putS (newArr w1 y).1 s1
      { st1 with data := upsert "_Error" w1.arrs.length st1.data, error := true }) m
      (Spec.Dict.error msg) := by
    refine upd_of hu1.good hu1.good (Ext.refl _ _) hm1 hs1 hrc1 (fun _ _ => rfl) rfl h3.1
      (hw2.2.weaken.trans h3.2) rfl ?_
    rw [dictOf_of (w := putS (newArr w1 y).1 s1 _) (m := m) hm1 hs3]
    congr 1
    unfold dictSto Spec.Dict.error
    simp only [hd1]
    congr 1
    funext k
    simp only [upsert, find]
    by_cases h : "_Error" = k
    · subst h
      simp only [if_pos]
      show lookA _ w1.arrs.length = _
      unfold lookA
      show ((newArr w1 y).1.arrs.get w1.arrs.length).map entry = _
      rw [hgetnew]
      simp [entry, hyty, hycon', Arr.new]
    · rw [if_neg h, if_neg (Ne.symm h)]; rfl
  refine ⟨_, ?_, hu2.good, hu2.at', fun m' hne => (hu2.other m' hne).trans (hu1.other m' hne),
    hu2.len.trans hu1.len⟩
  unfold mapSetError
  rw [e1, Res.bind_ok, ey, Res.bind_ok]
  have g1 : mapSto (newArr w1 y).1 m = .ok s1 := by
    show (match w1.maps.get m with | some s => Res.ok s | none => .ub) = _
    rw [hm1]
  have g2 : getS (newArr w1 y).1 s1 = .ok st1 := by unfold getS; rw [hs2]
  simp only [g1, Res.bind_ok, g2]
  rfl

end VS.Map
