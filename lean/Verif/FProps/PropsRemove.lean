import Verif.FProps.LemmasGlob

/-!
# C62: removing frame properties
-/

namespace VS.FProps
open VS VS.Map VS.Map.Spec VS.FProps.Spec

/-- C62: a pattern with wildcards fits exactly the names it stands for; no character of it has another meaning. -/
theorem C62_pattern (p : String) (k : Key) (hk : KeyOk k = true) :
    regexMatch (globToRegex p.toList) k = true ↔ Glob p.toList k.toList := regex_glob _ _ (keyOk_line hk)

example : regexMatch (globToRegex "VFM*".toList) "VFMMics" = true := by decide
example : regexMatch (globToRegex "a.c".toList) "abc" = false := by decide

/-- The patterns after `removeFramePropsCreate`. -/
def regs (pats : List String) : List (List Char) := pats.map fun p => globToRegex (cstr p).toList

/-- C62: no pattern makes the regular expression invalid. -/
theorem C62_create (pats : List String) : removeFramePropsCreate (some pats) = .ok (some (regs pats)) := by
  unfold removeFramePropsCreate
  simp only
  rw [if_pos]
  · rfl
  · rw [List.all_eq_true]
    intro p _
    rw [parse_glob]; rfl

example : removeFramePropsCreate (some ["[a-", "(", "\\"]) = .ok (some (regs ["[a-", "(", "\\"])) := C62_create _

/-- C62: without names all properties are removed. -/
theorem C62_remove_all (ops : List Op) (w : World) (s : State) (src : Nat) (d : Dict) (last : Bool)
    (h : Leads ops w s) (hd : s[src]? = some (some d)) :
    removeFramePropsCreate none = .ok none ∧
    Gives ops s (removeFrameProps none last w src) (after s src last Dict.empty) := by
  refine ⟨rfl, ?_⟩
  obtain ⟨w1, w2, h1, h2, e2⟩ := start_ext last h hd
  obtain ⟨w3, h3, e3⟩ := e2.step (op := .clear s.length) (s' := after s src last Dict.empty) (o := .unit) (by
    simp only [Spec.step, look_of (after_get s src last d), Res.bind_ok, after_upd])
  exact e3.gives (by simp only [removeFrameProps, removeFramePropsBy, removeProps, h1, h2, retUnit_inv h3, Res.bind_ok])

example : ∃ w s d, Leads [.create, .setInt 0 "_Field" 1 0] w s ∧ s[0]? = some (some d) := ⟨_, _, _, ⟨_, rfl, rfl⟩, rfl⟩

/-- The list of names of map `m`. -/
structure Enum (w : World) (m : Nat) (d : Dict) (ks : List Key) : Prop where
  sorted : ks.Pairwise (· < ·)
  mem : ∀ k, k ∈ ks ↔ d.get k ≠ none
  num : mapNumKeys w m = .ok ks.length
  key : ∀ i : Nat, mapGetKey w m i = .ok ks[i]?
  sto : ∃ t, mapSto w m = .ok t

theorem enum_of {ops : List Op} {w : World} {s : State} {m : Nat} {d : Dict} (h : Ext ops w s)
    (hd : s[m]? = some (some d)) : ∃ ks, Enum w m d ks := by
  obtain ⟨more, h⟩ := h
  obtain ⟨ks, h1, h2, h3, h4, -⟩ := C01_keys_enumerated _ w s m d h hd
  refine ⟨ks, h1, h2, h3, h4, ?_⟩
  unfold mapNumKeys at h3
  obtain ⟨t, ht, -⟩ := bind_ok_inv h3
  exact ⟨t, ht⟩

theorem enum_erase {w w' : World} {m : Nat} {d : Dict} {ks ks' : List Key} {i : Nat} {k : Key} (h : Enum w m d ks)
    (h' : Enum w' m (d.put k none) ks') (hi : ks[i]? = some k) : ks' = ks.eraseIdx i := by
  apply sorted_erase h.sorted h'.sorted hi
  intro x
  rw [h'.mem, h.mem]
  by_cases hx : x = k <;> simp [Dict.put, hx]

/-- Is a name to be removed? -/
def hit (res : List (List Char)) (k : Key) : Bool := res.any fun r => regexMatch r k

/-- Deleting a name. -/
theorem delete_ext {ops : List Op} {w : World} {s : State} {src : Nat} {last : Bool} {d : Dict} {k : Key}
    (h : Ext ops w (after s src last d)) (hk : k ≠ "_ColorRange") :
    ∃ w' b, mapErase w s.length k = .ok (w', b) ∧ mapDeleteKey w s.length k = .ok (w', b) ∧
      Ext ops w' (after s src last (d.put k none)) := by
  obtain ⟨w1, h1, e1⟩ := h.step (op := .delete s.length k) (s' := after s src last (d.put k none))
    (o := .code (if (d.get k).isSome then 1 else 0)) (by
      simp only [Spec.step, Spec.delete, look_of (after_get s src last d), Res.bind_ok, after_upd]
      rw [if_neg hk])
  have h1 := retCode_inv h1
  unfold mapDeleteKey at h1 ⊢
  cases hx : mapErase w s.length k with
  | ok r =>
    simp only [hx, Res.bind_ok, if_neg hk, Res.ok.injEq, Prod.mk.injEq] at h1 ⊢
    exact ⟨w1, r.2, by rw [← h1.1], by rw [← h1.1], e1⟩
  | err m => simp [hx] at h1
  | fatal m => simp [hx] at h1
  | ub => simp [hx] at h1

theorem loop_ext {ops : List Op} {s : State} {src : Nat} {last : Bool} (res : List (List Char)) :
    ∀ (fuel : Nat) (w : World) (d : Dict) (i : Nat) (ks : List Key), d.get "_ColorRange" = none →
    Ext ops w (after s src last d) → Enum w s.length d ks → ks.length - i ≤ fuel →
    (∀ (j : Nat) k, j < i → ks[j]? = some k → hit res k = false) →
    ∃ w' e, removeLoop deleteByValue res s.length fuel w i ks.length = .ok w' ∧ Ext ops w' (after s src last e) ∧
      e.err = d.err ∧ ∀ k, e.get k = if hit res k then none else d.get k := by
  intro fuel
  induction fuel with
  | zero =>
    intro w d i ks _ h he hf hj
    refine ⟨w, d, by rw [removeLoop, if_neg (by omega)], h, rfl, ?_⟩
    intro k
    split
    · rename_i hm
      apply Classical.byContradiction
      intro hn
      obtain ⟨j, hk⟩ := List.mem_iff_getElem?.mp ((he.mem k).mpr (fun e => hn e))
      have := (List.getElem?_eq_some_iff.mp hk).1
      rw [hj j k (by omega) hk] at hm
      cases hm
    · rfl
  | succ fuel ih =>
    intro w d i ks hcr h he hf hj
    by_cases hi : i < ks.length
    · obtain ⟨t, ht⟩ := he.sto
      have hk : ks[i]? = some ks[i] := List.getElem?_eq_getElem hi
      rw [removeLoop, if_pos hi]
      simp only [ht, Res.bind_ok, he.key, hk]
      by_cases hm : hit res ks[i] = true
      · have hne : ks[i] ≠ "_ColorRange" := by
          intro e
          have := (he.mem ks[i]).mp (List.getElem_mem hi)
          rw [e] at this
          exact this hcr
        obtain ⟨w', b, h1, h2, e2⟩ := delete_ext (k := ks[i]) h hne
        obtain ⟨ks', he'⟩ := enum_of e2 (after_get s src last _)
        have hks := enum_erase he he' hk
        have hlen : ks'.length = ks.length - 1 := by rw [hks, List.length_eraseIdx_of_lt hi]
        rw [hit] at hm; rw [if_pos hm]
        simp only [deleteByValue, h2, Res.bind_ok, he'.num]
        obtain ⟨w2, e, r1, r2, r3, r4⟩ := ih w' (d.put ks[i] none) i ks' (by simp [Dict.put, hcr]) e2 he' (by omega) (by
          intro j k hji hk'
          rw [hks, List.getElem?_eraseIdx_of_lt hji] at hk'
          exact hj j k hji hk')
        refine ⟨w2, e, r1, r2, r3, ?_⟩
        intro k
        rw [r4]
        split
        · rfl
        · rename_i hn
          show (if k = ks[i] then none else d.get k) = d.get k
          rw [if_neg]
          intro e; rw [e] at hn; exact hn hm
      · rw [hit] at hm; rw [if_neg hm]
        refine ih w d (i + 1) ks hcr h he (by omega) ?_
        intro j k hji hk'
        by_cases hji' : j = i
        · subst hji'
          rw [hk] at hk'
          injection hk' with hk'
          rw [← hk']; exact Bool.eq_false_iff.mpr hm
        · exact hj j k (by omega) hk'
    · refine ⟨w, d, by rw [removeLoop, if_neg hi], h, rfl, ?_⟩
      intro k
      split
      · rename_i hm
        apply Classical.byContradiction
        intro hn
        obtain ⟨j, hk⟩ := List.mem_iff_getElem?.mp ((he.mem k).mpr (fun e => hn e))
        have := (List.getElem?_eq_some_iff.mp hk).1
        rw [hj j k (by omega) hk] at hm
        cases hm
      · rfl

theorem hit_iff {pats : List String} {k : Key} (hk : KeyOk k = true) (hz : ∀ p ∈ pats, '\x00' ∉ p.toList) :
    hit (regs pats) k = true ↔ Matched pats k := by
  have htw : ∀ l : List Char, '\x00' ∉ l → l.takeWhile (· ≠ '\x00') = l := by
    intro l
    induction l with
    | nil => intro _; rfl
    | cons c t ih =>
      intro hl
      rw [List.takeWhile_cons_of_pos (by simp at hl ⊢; exact fun e => hl.1 e.symm), ih (by simp at hl; exact hl.2)]
  have hc : ∀ p ∈ pats, cstr p = p := by
    intro p hp
    unfold cstr
    rw [htw _ (hz p hp), String.ofList_toList]
  unfold hit regs Matched
  rw [List.any_map, List.any_eq_true]
  constructor
  · rintro ⟨p, hp, hm⟩
    simp only [Function.comp, hc p hp] at hm
    exact ⟨p, hp, (C62_pattern p k hk).mp hm⟩
  · rintro ⟨p, hp, hm⟩
    refine ⟨p, hp, ?_⟩
    simp only [Function.comp, hc p hp]
    exact (C62_pattern p k hk).mpr hm

/-- C62: if reading freed memory had no effect, then RemoveFrameProps would remove exactly the properties that one of the
patterns fits. What is missing: the code reads the name of a property after it has been freed (`C62_two_ub`). -/
theorem C62_remove_partial (ops : List Op) (w : World) (s : State) (src : Nat) (d : Dict) (last : Bool)
    (pats : List String) (h : Leads ops w s) (hd : s[src]? = some (some d)) (hcr : d.get "_ColorRange" = none)
    (hz : ∀ p ∈ pats, '\x00' ∉ p.toList) :
    ∃ e, (e.err = d.err ∧ ∀ k, KeyOk k = true → (Matched pats k → e.get k = none) ∧
        (¬ Matched pats k → e.get k = d.get k)) ∧
      Gives ops s (removeFramePropsBy deleteByValue (some (regs pats)) last w src) (after s src last e) := by
  obtain ⟨w1, w2, h1, h2, e2⟩ := start_ext last h hd
  obtain ⟨ks, he⟩ := enum_of e2 (after_get s src last d)
  obtain ⟨w3, e, r1, r2, r3, r4⟩ := loop_ext (regs pats) ks.length w2 d 0 ks hcr e2 he (by omega) (by omega)
  refine ⟨e, ⟨r3, fun k hk => ⟨fun hm => ?_, fun hm => ?_⟩⟩, ?_⟩
  · rw [r4, if_pos ((hit_iff hk hz).mpr hm)]
  · rw [r4, if_neg (fun hh => hm ((hit_iff hk hz).mp hh))]
  · refine r2.gives ?_
    simp only [removeFramePropsBy, removeProps, h1, h2, Res.bind_ok, he.num, r1]

example : ∃ w s d, Leads [.create, .setInt 0 "_Field" 1 0, .setInt 0 "VFMMatch" 1 0] w s ∧ s[0]? = some (some d) ∧
    d.get "_ColorRange" = none ∧ Matched ["VFM*"] "VFMMatch" :=
  ⟨_, _, _, ⟨_, rfl, rfl⟩, rfl, rfl, "VFM*", by simp, (C62_pattern _ _ (by decide)).mp (by decide)⟩

/-! ## The freed name -/

/-- Nobody else uses the storage of map `m`. -/
def Uniq (w : World) (m : Nat) : Prop := ∃ t st, w.maps.get m = some t ∧ w.stos.get t = some st ∧ st.rc = 1

theorem releaseArr_keeps {w w' : World} {a : Nat} (h : releaseArr w a = .ok w') : w'.maps = w.maps ∧ w'.stos = w.stos := by
  unfold releaseArr at h
  split at h
  · split at h
    · cases h
    split at h
    · injection h with h; subst h; exact ⟨rfl, rfl⟩
    · injection h with h; subst h; exact ⟨rfl, rfl⟩
  · cases h

theorem erase_uniq {w w' : World} {m : Nat} {b : Bool} {k : Key} (hw : Good w) {d : Dict} (hd : dictOf w m = some d)
    (hk : d.get k ≠ none) (h : mapErase w m k = .ok (w', b)) :
    Uniq w' m ∧ (Uniq w m → ∀ t, mapSto w m = .ok t → keyAlive w' t k = false) := by
  obtain ⟨t, st, hm, hs, rfl⟩ := dictOf_some hd
  obtain ⟨e, he⟩ := Option.ne_none_iff_exists'.mp hk
  obtain ⟨a0, x0, hf, -, -, -⟩ := find_some_iff hw hs he
  obtain ⟨w1, s1, st1, e1, hw1, x1, hm1, hs1, hrc1, hd1, he1, ho1, hl1⟩ := detach_ok hw hm hs
  have hf1 : find st1.data k = some a0 := by rw [hd1]; exact hf
  simp only [mapErase, mapFind_eq hm hs, hf, e1, mapSto, hm1, getS, hs1, hf1, Res.bind_ok] at h
  obtain ⟨w2, hr, h⟩ := bind_ok_inv h
  injection h with h; injection h with h _; subst h
  obtain ⟨k1, k2⟩ := releaseArr_keeps hr
  have hs2 : w2.stos.get s1 = some { st1 with data := eraseKey k st1.data } := by
    rw [k2]; exact Heap.get_put_self _ (Heap.get_lt hs1)
  refine ⟨⟨s1, _, by rw [k1]; exact hm1, hs2, hrc1⟩, ?_⟩
  rintro ⟨t', st', hm', hs', hrc'⟩ t'' ht
  rw [hm] at hm'; injection hm' with hm'; subst hm'
  rw [hs] at hs'; injection hs' with hs'; subst hs'
  have : w1 = w := by
    simp only [detach, mapSto, hm, getS, hs, Res.bind_ok, hrc', if_true, Res.ok.injEq] at e1
    exact e1.symm
  subst this
  rw [hm] at hm1; injection hm1 with hm1; subst hm1
  simp only [mapSto, hm, Res.ok.injEq] at ht
  subst ht
  unfold keyAlive
  rw [hs2]
  simp only
  rw [find_eraseKey (hw1.sorted t st1 hs1), if_pos rfl]
  rfl

/-- A name in the list is deleted from a map with its own storage: the name is read after it has been freed. -/
theorem deleteByPtr_ub {ops : List Op} {w : World} {s : State} {src : Nat} {last : Bool} {d : Dict} {k : Key} {t : Nat}
    (h : Ext ops w (after s src last d)) (hk : k ≠ "_ColorRange") (hd : d.get k ≠ none) (hu : Uniq w s.length)
    (ht : mapSto w s.length = .ok t) : deleteByPtr w s.length t k = .ub := by
  obtain ⟨w', b, h1, -, -⟩ := delete_ext h hk
  have hdict : dictOf w s.length = some d := by rw [← h.sim.dict, after_get]; rfl
  have := (erase_uniq h.sim.good hdict hd h1).2 hu t ht
  unfold deleteByPtr
  simp [h1, this]

theorem loop_ub {ops : List Op} {s : State} {src : Nat} {last : Bool} (res : List (List Char)) :
    ∀ (fuel : Nat) (w : World) (d : Dict) (i : Nat) (ks : List Key), d.get "_ColorRange" = none →
    Ext ops w (after s src last d) → Enum w s.length d ks → ks.length - i ≤ fuel → Uniq w s.length →
    (∃ (j : Nat) (k : Key), i ≤ j ∧ ks[j]? = some k ∧ hit res k = true) →
    removeLoop deleteByPtr res s.length fuel w i ks.length = .ub := by
  intro fuel
  induction fuel with
  | zero =>
    rintro w d i ks _ h he hf _ ⟨j, k, hj, hk, -⟩
    have := (List.getElem?_eq_some_iff.mp hk).1
    omega
  | succ fuel ih =>
    rintro w d i ks hcr h he hf hu ⟨j, k, hj, hk, hm⟩
    have hjl := (List.getElem?_eq_some_iff.mp hk).1
    have hi : i < ks.length := by omega
    have hki : ks[i]? = some ks[i] := List.getElem?_eq_getElem hi
    obtain ⟨t, ht⟩ := he.sto
    rw [removeLoop, if_pos hi]
    simp only [ht, Res.bind_ok, he.key, hki]
    have hmem := (he.mem ks[i]).mp (List.getElem_mem hi)
    by_cases hm' : hit res ks[i] = true
    · rw [hit] at hm'; rw [if_pos hm', deleteByPtr_ub h (fun e => hmem (by rw [e]; exact hcr)) hmem hu ht]; rfl
    · rw [hit] at hm'; rw [if_neg hm']
      refine ih w d (i + 1) ks hcr h he (by omega) hu ⟨j, k, ?_, hk, hm⟩
      by_cases e : j = i
      · subst e
        rw [hki] at hk; injection hk with hk
        rw [← hk] at hm; exact absurd hm hm'
      · omega

theorem loop_two_ub {ops : List Op} {s : State} {src : Nat} {last : Bool} (res : List (List Char)) :
    ∀ (fuel : Nat) (w : World) (d : Dict) (i : Nat) (ks : List Key), d.get "_ColorRange" = none →
    Ext ops w (after s src last d) → Enum w s.length d ks → ks.length - i ≤ fuel →
    (∃ (j j' : Nat) (k k' : Key), i ≤ j ∧ j < j' ∧ ks[j]? = some k ∧ ks[j']? = some k' ∧ hit res k = true ∧
      hit res k' = true) →
    removeLoop deleteByPtr res s.length fuel w i ks.length = .ub := by
  intro fuel
  induction fuel with
  | zero =>
    rintro w d i ks _ h he hf ⟨j, j', k, k', hj, hjj, hk, hk', -⟩
    have := (List.getElem?_eq_some_iff.mp hk).1
    omega
  | succ fuel ih =>
    rintro w d i ks hcr h he hf ⟨j, j', k, k', hj, hjj, hk, hk', hm, hm'⟩
    have hjl := (List.getElem?_eq_some_iff.mp hk').1
    have hi : i < ks.length := by omega
    have hki : ks[i]? = some ks[i] := List.getElem?_eq_getElem hi
    obtain ⟨t, ht⟩ := he.sto
    rw [removeLoop, if_pos hi]
    simp only [ht, Res.bind_ok, he.key, hki]
    have hmem := (he.mem ks[i]).mp (List.getElem_mem hi)
    have hne : ks[i] ≠ "_ColorRange" := fun e => hmem (by rw [e]; exact hcr)
    by_cases hm0 : hit res ks[i] = true
    · rw [hit] at hm0; rw [if_pos hm0]
      obtain ⟨w', b, h1, -, e2⟩ := delete_ext h hne
      have hdict : dictOf w s.length = some d := by rw [← h.sim.dict, after_get]; rfl
      have hu := (erase_uniq h.sim.good hdict hmem h1).1
      obtain ⟨ks', he'⟩ := enum_of e2 (after_get s src last _)
      have hks := enum_erase he he' hki
      have hlen : ks'.length = ks.length - 1 := by rw [hks, List.length_eraseIdx_of_lt hi]
      unfold deleteByPtr
      simp only [h1, Res.bind_ok, if_neg hne]
      split
      · simp only [Res.bind_ok, he'.num]
        refine loop_ub res fuel w' _ i ks' (by simp [Dict.put, hcr]) e2 he' (by omega) hu ⟨j' - 1, k', by omega, ?_, hm'⟩
        rw [hks, List.getElem?_eraseIdx_of_ge (by omega)]
        rw [show j' - 1 + 1 = j' by omega]; exact hk'
      · rfl
    · rw [hit] at hm0; rw [if_neg hm0]
      refine ih w d (i + 1) ks hcr h he (by omega) ⟨j, j', k, k', ?_, hjj, hk, hk', hm, hm'⟩
      by_cases e : j = i
      · subst e
        rw [hki] at hk; injection hk with hk
        rw [← hk] at hm; exact absurd hm hm0
      · omega

/-- C62: whenever two properties of a frame are to be removed, the behaviour is undefined: `mapDeleteKey` compares the name
it has just erased from the map, and freed, with `_ColorRange`. -/
theorem C62_two_ub (ops : List Op) (w : World) (s : State) (src : Nat) (d : Dict) (last : Bool) (pats : List String)
    (k k' : Key) (h : Leads ops w s) (hd : s[src]? = some (some d)) (hcr : d.get "_ColorRange" = none)
    (hz : ∀ p ∈ pats, '\x00' ∉ p.toList) (hk : d.get k ≠ none) (hk' : d.get k' ≠ none) (hne : k ≠ k')
    (hm : Matched pats k) (hm' : Matched pats k') :
    removeFrameProps (some (regs pats)) last w src = .ub := by
  obtain ⟨w1, w2, h1, h2, e2⟩ := start_ext last h hd
  obtain ⟨ks, he⟩ := enum_of e2 (after_get s src last d)
  have hok := leads_keys h src d hd
  have a1 := (hit_iff (hok k hk) hz).mpr hm
  have a2 := (hit_iff (hok k' hk') hz).mpr hm'
  obtain ⟨j, hj⟩ := List.mem_iff_getElem?.mp ((he.mem k).mpr hk)
  obtain ⟨j', hj'⟩ := List.mem_iff_getElem?.mp ((he.mem k').mpr hk')
  have hjj : j ≠ j' := by intro e; rw [e, hj'] at hj; injection hj with hj; exact hne hj.symm
  simp only [removeFrameProps, removeFramePropsBy, removeProps, h1, h2, Res.bind_ok, he.num]
  rw [loop_two_ub (regs pats) ks.length w2 d 0 ks hcr e2 he (by omega)]
  · rfl
  · rcases Nat.lt_or_gt_of_ne hjj with hlt | hlt
    · exact ⟨j, j', k, k', by omega, hlt, hj, hj', a1, a2⟩
    · exact ⟨j', j, k', k, by omega, hlt, hj', hj, a2, a1⟩

/-- C62: even removing a single property is undefined if nobody else uses the properties of the frame. -/
theorem C62_remove_refuted : ¬ ∀ (ops : List Op) (w : World) (s : State) (src : Nat) (d : Dict) (last : Bool)
    (pats : List String), Leads ops w s → s[src]? = some (some d) → d.get "_ColorRange" = none →
    ∃ s', Gives ops s (removeFrameProps (some (regs pats)) last w src) s' := by
  intro h
  obtain ⟨s', w', more, hr, -⟩ := h [.create, .setInt 0 "a" 1 0, .setInt 0 "b" 1 0] _ _ 0 _ true ["b"]
    ⟨_, rfl, rfl⟩ rfl rfl
  have hu : removeFrameProps (some (regs ["b"])) true ⟨[some ⟨1, .int, 1, some (.int 1), []⟩,
      some ⟨1, .int, 1, some (.int 1), []⟩], [some ⟨1, [("a", 0), ("b", 1)], false⟩], [some 0]⟩ 0 = .ub := by decide
  have := hu.symm.trans hr
  cases this

/-- C62: `RemoveFrameProps("_ColorRange")` does not remove the color range, although the property can be set and read
under this name. -/
theorem C62_colorRange_refuted : ∃ w s w', Leads [.create, .setInt 0 "_ColorRange" 1 0] w s ∧
    removeFrameProps (some (regs ["_ColorRange"])) false w 0 = .ok (w', 1) ∧
    mapGetInt w' 1 "_ColorRange" 0 true = .ok (1, 0) := by
  exact ⟨_, _, _, ⟨_, rfl, rfl⟩, rfl, rfl⟩

end VS.FProps
