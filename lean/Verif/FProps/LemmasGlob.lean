import Verif.FProps.Lemmas

/-!
# Lemmas: wildcards as regular expressions, and the list of names of a map
-/

namespace VS.FProps
open VS VS.Map VS.Map.Spec VS.FProps.Spec

/-- The atom a character of a pattern becomes. -/
def atomOf (c : Char) : Atom := if c = '*' then .anyStar else if c = '?' then .any else .lit c

theorem parse_char (c : Char) (t : List Char) :
    parseRegex (globChar c ++ t) = (parseRegex t).map (atomOf c :: ·) := by
  unfold globChar atomOf
  by_cases h1 : c = '*'
  · subst h1; rw [if_pos rfl, if_pos rfl]; rfl
  by_cases h2 : c = '?'
  · subst h2; rw [if_neg h1, if_neg h1, if_pos rfl, if_pos rfl]
    show parseRegex ('.' :: t) = _
    simp [parseRegex]
  rw [if_neg h1, if_neg h2, if_neg h1, if_neg h2]
  by_cases h3 : special c = true
  · rw [if_pos h3]
    have hs : syntaxChar c = true := by
      simp only [special, List.contains_cons, List.contains_nil, Bool.or_false, Bool.or_eq_true, beq_iff_eq] at h3
      rcases h3 with h | h | h | h | h | h | h | h | h | h | h | h <;> subst h <;> rfl
    show parseRegex ('\\' :: c :: t) = _
    simp [parseRegex, hs]
  · rw [if_neg h3]
    have hs : special c = false := by simpa using h3
    simp only [special, List.contains_cons, List.contains_nil, Bool.or_false, Bool.or_eq_false_iff, beq_eq_false_iff_ne,
      ne_eq] at hs
    obtain ⟨a1, a2, a3, a4, a5, a6, a7, a8, a9, a10, a11, a12⟩ := hs
    have hx : syntaxChar c = false := by simp [syntaxChar, *]
    show parseRegex (c :: t) = _
    rw [parseRegex]
    · simp [hx]
    all_goals simp_all

theorem parse_glob (p : List Char) : parseRegex (globToRegex p) = some (.bol :: (p.map atomOf ++ [.eol])) := by
  have h : ∀ p : List Char, parseRegex (p.flatMap globChar ++ ['$']) = some (p.map atomOf ++ [.eol]) := by
    intro p
    induction p with
    | nil => rfl
    | cons c t ih => rw [List.flatMap_cons, List.append_assoc, parse_char, ih]; rfl
  unfold globToRegex
  rw [parseRegex, h]; rfl

theorem star_glob {p : List Char} {f : List Char → Bool} (hf : ∀ t, (∀ c ∈ t, lineEnd c = false) →
    (f t = true ↔ Glob p t)) : ∀ s : List Char, (∀ c ∈ s, lineEnd c = false) →
    (starMatch f s = true ↔ Glob ('*' :: p) s) := by
  intro s
  induction s with
  | nil =>
    intro hs
    rw [starMatch, hf [] hs]
    constructor
    · exact fun h => .none _ _ h
    · intro h
      cases h with
      | none _ _ h => exact h
  | cons c t ih =>
    intro hs
    have ht : ∀ x ∈ t, lineEnd x = false := fun x hx => hs x (by simp [hx])
    rw [starMatch, Bool.or_eq_true, Bool.and_eq_true, hf _ hs, hs c (by simp), ih ht]
    simp only [Bool.not_false, true_and]
    constructor
    · rintro (h | h)
      · exact .none _ _ h
      · exact .more _ _ _ h
    · intro h
      cases h with
      | char _ _ _ h1 => exact absurd rfl h1
      | none _ _ h => exact .inl h
      | more _ _ _ h => exact .inr h

theorem atoms_glob (p : List Char) : ∀ (b : Bool) (s : List Char), (∀ c ∈ s, lineEnd c = false) →
    (atoms (p.map atomOf ++ [.eol]) b s = true ↔ Glob p s) := by
  induction p with
  | nil =>
    intro b s _
    cases s with
    | nil => simp [atoms, Glob.nil]
    | cons c t => simp only [List.map_nil, List.nil_append, atoms, List.isEmpty_cons, Bool.false_and, Bool.false_eq_true,
        false_iff]; intro h; cases h
  | cons c t ih =>
    intro b s hs
    rw [List.map_cons, List.cons_append]
    by_cases h1 : c = '*'
    · subst h1
      rw [show atomOf '*' = .anyStar from rfl, atoms]
      exact star_glob (fun u hu => ih _ u hu) s hs
    by_cases h2 : c = '?'
    · subst h2
      rw [show atomOf '?' = .any from rfl]
      cases s with
      | nil =>
        simp only [atoms, Bool.false_eq_true, false_iff]
        intro h; cases h
      | cons x u =>
        simp only [atoms, hs x (by simp), Bool.not_false, Bool.true_and]
        rw [ih _ u fun y hy => hs y (by simp [hy])]
        constructor
        · exact fun h => .one _ _ _ h
        · intro h
          cases h with
          | char _ _ _ _ h => exact absurd rfl h
          | one _ _ _ h => exact h
    · rw [show atomOf c = .lit c by unfold atomOf; rw [if_neg h1, if_neg h2]]
      cases s with
      | nil =>
        simp only [atoms, Bool.false_eq_true, false_iff]
        intro h
        cases h with
        | none => exact h1 rfl
      | cons x u =>
        simp only [atoms, Bool.and_eq_true, beq_iff_eq]
        rw [ih _ u fun y hy => hs y (by simp [hy])]
        constructor
        · rintro ⟨rfl, h⟩; exact .char _ _ _ h1 h2 h
        · intro h
          cases h with
          | char _ _ _ _ _ h => exact ⟨rfl, h⟩
          | one => exact absurd rfl h2
          | none => exact absurd rfl h1
          | more => exact absurd rfl h1

/-- The regular expression of a pattern fits exactly the names the pattern stands for. -/
theorem regex_glob (p : List Char) (k : Key) (hk : ∀ c ∈ k.toList, lineEnd c = false) :
    regexMatch (globToRegex p) k = true ↔ Glob p k.toList := by
  unfold regexMatch
  rw [parse_glob]
  simp only [atoms, Bool.true_and]
  exact atoms_glob p true _ hk

/-- Names contain no line ends. -/
theorem keyOk_line {k : Key} (h : KeyOk k = true) : ∀ c ∈ k.toList, lineEnd c = false := by
  have hc : ∀ c : Char, (c.isAlphanum || c == '_') = true → lineEnd c = false := by
    intro c hc
    by_cases h1 : c = '\n'
    · subst h1; revert hc; decide
    by_cases h2 : c = '\r'
    · subst h2; revert hc; decide
    simp [lineEnd, h1, h2]
  have hh : ∀ c : Char, (c.isAlpha || c == '_') = true → lineEnd c = false := by
    intro c hc'
    apply hc
    simp only [Char.isAlphanum, Bool.or_eq_true] at hc' ⊢
    rcases hc' with h | h
    · exact .inl (.inl h)
    · exact .inr h
  unfold KeyOk at h
  cases hk : k.toList with
  | nil => simp
  | cons c t =>
    rw [hk] at h
    simp only [Bool.and_eq_true, List.all_eq_true] at h
    intro x hx
    rcases List.mem_cons.mp hx with rfl | hx
    · exact hh _ h.1
    · exact hc _ (h.2 x hx)

/-! ## All names are valid -/

/-- All names are valid. -/
def AllKeys (s : State) : Prop := ∀ (m : Nat) (d : Dict), s[m]? = some (some d) → ∀ k, d.get k ≠ none → KeyOk k = true

theorem AllKeys.snoc {s : State} {d : Dict} (h : AllKeys s) (hd : ∀ k, d.get k ≠ none → KeyOk k = true) :
    AllKeys (s ++ [some d]) := by
  intro m e he k hk
  by_cases hm : m < s.length
  · rw [List.getElem?_append_left hm] at he; exact h m e he k hk
  · rw [List.getElem?_append_right (by omega)] at he
    by_cases h0 : m - s.length = 0
    · rw [h0] at he; simp at he; subst he; exact hd k hk
    · rw [List.getElem?_eq_none (by simp; omega)] at he; cases he

theorem AllKeys.upd {s : State} {m : Nat} {d : Dict} (h : AllKeys s) (hd : ∀ k, d.get k ≠ none → KeyOk k = true) :
    AllKeys (Map.Spec.upd s m (some d)) := by
  intro m' e he k hk
  unfold Map.Spec.upd at he
  by_cases hm : m = m'
  · subst hm
    by_cases hlt : m < s.length
    · rw [List.getElem?_set_self hlt] at he; simp at he; subst he; exact hd k hk
    · rw [List.getElem?_eq_none (by simp; omega)] at he; cases he
  · rw [List.getElem?_set_ne hm] at he; exact h m' e he k hk

theorem AllKeys.free {s : State} {m : Nat} (h : AllKeys s) : AllKeys (Map.Spec.upd s m none) := by
  intro m' e he k hk
  unfold Map.Spec.upd at he
  by_cases hm : m = m'
  · subst hm
    by_cases hlt : m < s.length
    · rw [List.getElem?_set_self hlt] at he; cases he
    · rw [List.getElem?_eq_none (by simp; omega)] at he; cases he
  · rw [List.getElem?_set_ne hm] at he; exact h m' e he k hk

theorem put_keys {d : Dict} {k : Key} {e : Option Entry} (hd : ∀ k, d.get k ≠ none → KeyOk k = true)
    (hk : KeyOk k = true) : ∀ k', (d.put k e).get k' ≠ none → KeyOk k' = true := by
  intro k' h
  unfold Dict.put at h
  simp only at h
  split at h
  · rename_i hh; rw [hh]; exact hk
  · exact hd k' h

theorem put_none_keys {d : Dict} {k : Key} (hd : ∀ k, d.get k ≠ none → KeyOk k = true) :
    ∀ k', (d.put k none).get k' ≠ none → KeyOk k' = true := by
  intro k' h
  unfold Dict.put at h
  simp only at h
  split at h
  · exact absurd rfl h
  · exact hd k' h

theorem AllKeys.look {s : State} {m : Nat} {d : Dict} (h : AllKeys s) (hd : Map.Spec.look s m = .ok d) :
    ∀ k, d.get k ≠ none → KeyOk k = true := by
  refine h m d ?_
  have := (look_some hd).1
  cases hm : s[m]? with
  | none => rw [hm] at this; cases this
  | some o => rw [hm] at this; exact congrArg some this

theorem bind_ok_inv {α β : Type} {r : Res α} {f : α → Res β} {b : β} (h : (r >>= f) = .ok b) :
    ∃ a, r = .ok a ∧ f a = .ok b := by
  cases r with
  | ok a => exact ⟨a, rfl, h⟩
  | err m => cases h
  | fatal m => cases h
  | ub => cases h

theorem setter_keys {s s' : State} {m : Nat} {k : Key} {v : Val} {ty : PType} {mode : Int} {o : Out} (h : AllKeys s)
    (hs : setter s m k v ty mode = .ok (s', o)) : AllKeys s' := by
  unfold setter at hs
  split at hs
  · cases hs
  split at hs
  · injection hs with hs; injection hs with hs _; subst hs; exact h
  rename_i hk
  have hk : KeyOk k = true := by simpa using hk
  obtain ⟨d, hd, hs⟩ := bind_ok_inv hs
  split at hs
  · rename_i d' hd'
    injection hs with hs; injection hs with hs _; subst hs
    refine h.upd ?_
    unfold setVal at hd'
    rw [if_neg (by simp [hk])] at hd'
    have hp : ∀ e, ∀ k', (d.put k e).get k' ≠ none → KeyOk k' = true := fun e => put_keys (h.look hd) hk
    split at hd'
    · injection hd' with hd'; subst hd'; exact hp _
    split at hd'
    · split at hd'
      · injection hd' with hd'; subst hd'; exact hp _
      · split at hd'
        · injection hd' with hd'; subst hd'; exact hp _
        · cases hd'
    · split at hd'
      · injection hd' with hd'; subst hd'; exact hp _
      · cases hd'
  · injection hs with hs; injection hs with hs _; subst hs; exact h

theorem setArray_keys {s s' : State} {m : Nat} {k : Key} {l : List Val} {ty : PType} {o : Out} (h : AllKeys s)
    (hk : KeyOk k = true) (hs : setArray s m k l ty = .ok (s', o)) : AllKeys s' := by
  unfold setArray at hs
  obtain ⟨d, hd, hs⟩ := bind_ok_inv hs
  injection hs with hs; injection hs with hs _; subst hs
  exact h.upd (put_keys (h.look hd) hk)

theorem reading_keys {s s' : State} {m : Nat} {f : Dict → Res Out} {o : Out} (h : AllKeys s)
    (hs : reading s m f = .ok (s', o)) : AllKeys s' := by
  unfold reading at hs
  obtain ⟨d, hd, hs⟩ := bind_ok_inv hs
  obtain ⟨x, hx, hs⟩ := bind_ok_inv hs
  injection hs with hs; injection hs with hs _; subst hs; exact h

theorem merge_keys {d e : Dict} (hd : ∀ k, d.get k ≠ none → KeyOk k = true) (he : ∀ k, e.get k ≠ none → KeyOk k = true) :
    ∀ k, (d.merge e).get k ≠ none → KeyOk k = true := by
  intro k hk
  unfold Dict.merge at hk
  simp only at hk
  split at hk
  · rename_i x hx; exact he k (by rw [hx]; simp)
  · exact hd k hk

theorem step_keys {s s' : State} {op : Op} {o : Out} (h : AllKeys s) (hs : Spec.step s op = .ok (s', o)) : AllKeys s' := by
  cases op with
  | create =>
    simp only [Spec.step] at hs
    injection hs with hs; injection hs with hs _; subst hs
    exact h.snoc (fun k hk => absurd rfl hk)
  | clone src =>
    simp only [Spec.step] at hs
    obtain ⟨d, hd, hs⟩ := bind_ok_inv hs
    injection hs with hs; injection hs with hs _; subst hs
    exact h.snoc (h.look hd)
  | assign dst src =>
    simp only [Spec.step] at hs
    split at hs
    · injection hs with hs; injection hs with hs _; subst hs; exact h
    obtain ⟨d, hd, hs⟩ := bind_ok_inv hs
    obtain ⟨e, he, hs⟩ := bind_ok_inv hs
    injection hs with hs; injection hs with hs _; subst hs
    exact h.upd (h.look he)
  | copy src dst =>
    simp only [Spec.step] at hs
    split at hs
    · injection hs with hs; injection hs with hs _; subst hs; exact h
    obtain ⟨d, hd, hs⟩ := bind_ok_inv hs
    obtain ⟨e, he, hs⟩ := bind_ok_inv hs
    injection hs with hs; injection hs with hs _; subst hs
    exact h.upd (merge_keys (h.look hd) (h.look he))
  | free m =>
    simp only [Spec.step] at hs
    obtain ⟨d, hd, hs⟩ := bind_ok_inv hs
    injection hs with hs; injection hs with hs _; subst hs
    exact h.free
  | clear m =>
    simp only [Spec.step] at hs
    obtain ⟨d, hd, hs⟩ := bind_ok_inv hs
    injection hs with hs; injection hs with hs _; subst hs
    exact h.upd (fun k hk => absurd rfl hk)
  | setError m msg =>
    simp only [Spec.step] at hs
    obtain ⟨d, hd, hs⟩ := bind_ok_inv hs
    injection hs with hs; injection hs with hs _; subst hs
    refine h.upd ?_
    intro k hk
    unfold Dict.error at hk
    simp only at hk
    split at hk
    · rename_i e; rw [e]; decide
    · exact absurd rfl hk
  | setInt m k i a => exact setter_keys h hs
  | setFloat m k b a => exact setter_keys h hs
  | setData m k d l hint a =>
    simp only [Spec.step] at hs
    split at hs
    · exact setter_keys h hs
    · cases hs
  | setNode m k q a => exact setter_keys h hs
  | setFrame m k q a => exact setter_keys h hs
  | setFunction m k p a => exact setter_keys h hs
  | setEmpty m k t =>
    simp only [Spec.step, setEmpty] at hs
    split at hs
    · injection hs with hs; injection hs with hs _; subst hs; exact h
    rename_i hk
    have hk : KeyOk k = true := by simpa using hk
    obtain ⟨d, hd, hs⟩ := bind_ok_inv hs
    split at hs
    · injection hs with hs; injection hs with hs _; subst hs
      refine h.upd (put_keys (h.look hd) ?_)
      split
      · rw [keyOk_canon]; exact hk
      · exact hk
    · injection hs with hs; injection hs with hs _; subst hs; exact h
  | setIntArray m k l n =>
    simp only [Spec.step] at hs
    split at hs
    · injection hs with hs; injection hs with hs _; subst hs; exact h
    split at hs
    · cases hs
    rename_i hk _
    exact setArray_keys h (by rw [keyOk_canon]; simp at hk; exact hk.2) hs
  | setFloatArray m k l n =>
    simp only [Spec.step] at hs
    split at hs
    · injection hs with hs; injection hs with hs _; subst hs; exact h
    split at hs
    · cases hs
    rename_i hk _
    exact setArray_keys h (by simp at hk; exact hk.2) hs
  | delete m k =>
    simp only [Spec.step, Spec.delete] at hs
    obtain ⟨d, hd, hs⟩ := bind_ok_inv hs
    split at hs
    · injection hs with hs; injection hs with hs _; subst hs
      exact h.upd (put_none_keys (put_none_keys (h.look hd)))
    · injection hs with hs; injection hs with hs _; subst hs
      exact h.upd (put_none_keys (h.look hd))
  | numElements m k => exact reading_keys h hs
  | getType m k => exact reading_keys h hs
  | getInt m k i e => exact reading_keys h hs
  | getIntSaturated m k i e => exact reading_keys h hs
  | getFloat m k i e => exact reading_keys h hs
  | getData m k i e => exact reading_keys h hs
  | getNode m k i e => exact reading_keys h hs
  | getFrame m k i e => exact reading_keys h hs
  | getFunction m k i e => exact reading_keys h hs
  | getIntArray m k e => exact reading_keys h hs
  | getFloatArray m k e => exact reading_keys h hs
  | getError m => exact reading_keys h hs

theorem run_keys : ∀ {ops : List Op} {s s' : State} {os : List Out}, AllKeys s → Spec.run s ops = .ok (s', os) →
    AllKeys s' := by
  intro ops
  induction ops with
  | nil => intro s s' os h hr; injection hr with hr; injection hr with hr _; subst hr; exact h
  | cons op t ih =>
    intro s s' os h hr
    obtain ⟨p, hp, hr⟩ := bind_ok_inv hr
    obtain ⟨q, hq, hr⟩ := bind_ok_inv hr
    injection hr with hr; injection hr with hr _; subst hr
    exact ih (step_keys h hp) hq

theorem leads_keys {ops : List Op} {w : World} {s : State} (h : Leads ops w s) : AllKeys s := by
  obtain ⟨os, -, h2⟩ := h
  exact run_keys (fun m d hd => by simp [State.empty] at hd) h2

/-! ## Sorted lists of names -/

theorem sorted_unique : ∀ {a b : List Key}, a.Pairwise (· < ·) → b.Pairwise (· < ·) → (∀ k, k ∈ a ↔ k ∈ b) → a = b := by
  intro a
  induction a with
  | nil =>
    intro b _ _ h
    cases b with
    | nil => rfl
    | cons x t => exact absurd ((h x).mpr (by simp)) (by simp)
  | cons x t ih =>
    intro b ha hb h
    cases b with
    | nil => exact absurd ((h x).mp (by simp)) (by simp)
    | cons y u =>
      have ha' := List.pairwise_cons.mp ha
      have hb' := List.pairwise_cons.mp hb
      have hxy : x = y := by
        rcases List.mem_cons.mp ((h x).mp (by simp)) with e | e
        · exact e
        rcases List.mem_cons.mp ((h y).mpr (by simp)) with e' | e'
        · exact e'.symm
        exact absurd (ha'.1 y e') (String.lt_asymm (hb'.1 x e))
      subst hxy
      congr 1
      apply ih ha'.2 hb'.2
      intro k
      have hk := h k
      simp only [List.mem_cons] at hk
      constructor
      · intro hm
        rcases hk.mp (.inr hm) with e | e
        · exact absurd (ha'.1 k hm) (by rw [e]; exact String.lt_irrefl _)
        · exact e
      · intro hm
        rcases hk.mpr (.inr hm) with e | e
        · exact absurd (hb'.1 k hm) (by rw [e]; exact String.lt_irrefl _)
        · exact e

theorem sorted_inj {a : List Key} (ha : a.Pairwise (· < ·)) {i j : Nat} {k : Key} (hi : a[i]? = some k)
    (hj : a[j]? = some k) : i = j := by
  obtain ⟨hi1, hi2⟩ := List.getElem?_eq_some_iff.mp hi
  obtain ⟨hj1, hj2⟩ := List.getElem?_eq_some_iff.mp hj
  have hp := List.pairwise_iff_getElem.mp ha
  rcases Nat.lt_trichotomy i j with h | h | h
  · have := hp i j hi1 hj1 h; rw [hi2, hj2] at this; exact absurd this (String.lt_irrefl _)
  · exact h
  · have := hp j i hj1 hi1 h; rw [hi2, hj2] at this; exact absurd this (String.lt_irrefl _)

/-- Removing one name from the list. -/
theorem sorted_erase {a b : List Key} {i : Nat} {k : Key} (ha : a.Pairwise (· < ·)) (hb : b.Pairwise (· < ·))
    (hi : a[i]? = some k) (h : ∀ x, x ∈ b ↔ x ∈ a ∧ x ≠ k) : b = a.eraseIdx i := by
  apply sorted_unique hb (ha.sublist (List.eraseIdx_sublist a i))
  intro x
  rw [h, List.mem_eraseIdx_iff_getElem?]
  constructor
  · rintro ⟨hx, hne⟩
    obtain ⟨j, hj⟩ := List.mem_iff_getElem?.mp hx
    exact ⟨j, fun e => hne (by rw [e, hi] at hj; injection hj with hj; exact hj.symm), hj⟩
  · rintro ⟨j, hj, hx⟩
    refine ⟨List.mem_of_getElem? hx, fun e => hj ?_⟩
    rw [e] at hx
    exact sorted_inj ha hx hi

end VS.FProps
