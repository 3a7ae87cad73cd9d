import Verif.Plugin.Spec

/-! # Helper lemmas for argument strings -/

namespace VS.Plugin
open VS VS.Plugin.Spec
open VS.Map (PType)

/-! ## Pieces -/

theorem Pieces.cons_inv {sep : Char → Prop} {c : Char} {t : List Char} {ps : List (List Char)}
    (hc : sep c) (h : Pieces sep (c :: t) ps) : Pieces sep t ps := by
  generalize hs : c :: t = s at h
  cases h with
  | nil => cases hs
  | skip _ h => injection hs with h1 h2; exact h2 ▸ h
  | last hp hn => subst hs; exact absurd hc (hn c (by simp))
  | @piece p d u qs hp hn hd h =>
    cases p with
    | nil => exact absurd rfl hp
    | cons x p =>
      injection hs with h1 h2
      exact absurd (h1 ▸ hc) (hn x (by simp))

theorem Pieces.nil_inv {sep : Char → Prop} {ps : List (List Char)} (h : Pieces sep [] ps) :
    ps = [] := by
  generalize hs : ([] : List Char) = s at h
  cases h with
  | nil => rfl
  | skip _ h => cases hs
  | last hp hn => exact absurd hs.symm hp
  | piece hp hn hd h => simp at hs

/-- A run of other characters at the front is the first piece. -/
theorem Pieces.run_inv {sep : Char → Prop} {p : List Char} (hp : p ≠ [])
    (hn : ∀ c ∈ p, ¬ sep c) {ps : List (List Char)} (h : Pieces sep p ps) : ps = [p] := by
  generalize hs : p = s at h
  cases h with
  | nil => exact absurd hs hp
  | skip hc h => subst hs; exact absurd hc (hn _ (by simp))
  | last _ _ => rfl
  | @piece q d u qs hq hqn hd h => subst hs; exact absurd hd (hn d (by simp))

/-- Two ways of writing a string as run, separator, rest agree. -/
theorem run_unique {sep : Char → Prop} :
    ∀ {p q : List Char} {c d : Char} {t u : List Char}, (∀ x ∈ p, ¬ sep x) → (∀ x ∈ q, ¬ sep x) →
      sep c → sep d → p ++ c :: t = q ++ d :: u → p = q ∧ c = d ∧ t = u
  | [], [], _, _, _, _, _, _, _, _, h => by simpa using h
  | [], y :: q, c, d, t, u, _, hq, hc, _, h => by
    simp only [List.nil_append, List.cons_append, List.cons.injEq] at h
    exact absurd (h.1 ▸ hc) (hq y (by simp))
  | x :: p, [], c, d, t, u, hp, _, _, hd, h => by
    simp only [List.nil_append, List.cons_append, List.cons.injEq] at h
    exact absurd (h.1 ▸ hd) (hp x (by simp))
  | x :: p, y :: q, c, d, t, u, hp, hq, hc, hd, h => by
    simp only [List.cons_append, List.cons.injEq] at h
    obtain ⟨h1, h2⟩ := h
    obtain ⟨a, b, e⟩ := run_unique (fun z hz => hp z (by simp [hz])) (fun z hz => hq z (by simp [hz]))
      hc hd h2
    exact ⟨by rw [h1, a], b, e⟩

theorem Pieces.piece_inv {sep : Char → Prop} {p : List Char} {c : Char} {t : List Char}
    (hp : p ≠ []) (hn : ∀ x ∈ p, ¬ sep x) (hc : sep c) {ps : List (List Char)}
    (h : Pieces sep (p ++ c :: t) ps) : ∃ qs, ps = p :: qs ∧ Pieces sep t qs := by
  generalize hs : p ++ c :: t = s at h
  cases h with
  | nil => simp at hs
  | @skip d u qs hd h =>
    cases p with
    | nil => exact absurd rfl hp
    | cons x p =>
      simp only [List.cons_append, List.cons.injEq] at hs
      exact absurd (hs.1 ▸ hd) (hn x (by simp))
  | last _ hm => subst hs; exact absurd hc (hm c (by simp))
  | @piece q d u qs hq hqn hd h =>
    obtain ⟨a, b, e⟩ := run_unique hn hqn hc hd hs
    subst a; subst e
    exact ⟨qs, rfl, h⟩

/-- A string has only one list of pieces. -/
theorem Pieces.unique {sep : Char → Prop} {s : List Char} {ps qs : List (List Char)}
    (h : Pieces sep s ps) (h' : Pieces sep s qs) : ps = qs := by
  induction h generalizing qs with
  | nil => exact (Pieces.nil_inv h').symm
  | skip hc _ ih => exact ih (Pieces.cons_inv hc h')
  | last hp hn => exact (Pieces.run_inv hp hn h').symm
  | piece hp hn hc _ ih =>
    obtain ⟨r, e, hr⟩ := Pieces.piece_inv hp hn hc h'
    rw [e, ih hr]

theorem Pieces.mem {sep : Char → Prop} {s : List Char} {ps : List (List Char)}
    (h : Pieces sep s ps) : ∀ p ∈ ps, p ≠ [] ∧ ∀ c ∈ p, ¬ sep c := by
  induction h with
  | nil => intro p hp; cases hp
  | skip _ _ ih => exact ih
  | last hp hn => intro p h; simp at h; subst h; exact ⟨hp, hn⟩
  | piece hp hn _ _ ih =>
    intro p h
    rcases List.mem_cons.1 h with e | h
    · subst e; exact ⟨hp, hn⟩
    · exact ih p h

theorem dropWhile_sep {sep : Char → Prop} (f : Char → Bool) (hf : ∀ c, f c = true ↔ sep c) :
    ∀ (s : List Char) (ps : List (List Char)), Pieces sep (s.dropWhile f) ps → Pieces sep s ps
  | [], _, h => h
  | c :: t, ps, h => by
    by_cases hc : f c = true
    · rw [List.dropWhile_cons_of_pos hc] at h
      exact .skip ((hf c).1 hc) (dropWhile_sep f hf t ps h)
    · rw [List.dropWhile_cons_of_neg hc] at h
      exact h

theorem splitLoop_pieces (d : Char) :
    ∀ (fuel : Nat) (s : List Char), s.length < fuel →
      Pieces (· = d) s (splitLoop d fuel s)
  | 0, _, h => absurd h (Nat.not_lt_zero _)
  | fuel + 1, s, hl => by
    apply dropWhile_sep (· == d) (by simp)
    unfold splitLoop
    cases hd : s.dropWhile (· == d) with
    | nil => exact .nil
    | cons c t =>
      simp only
      have hc : (c == d) = false := by
        have := List.head?_dropWhile_not (· == d) s
        rw [hd] at this
        simpa using this
      have hc' : c ≠ d := by simpa using hc
      have hlen : (c :: t).length ≤ s.length := by
        rw [← hd]; exact (List.dropWhile_sublist _).length_le
      have htw : (c :: t).takeWhile (· != d) ≠ [] := by
        simp [hc']
      have hno : ∀ x ∈ (c :: t).takeWhile (· != d), ¬ x = d := by
        intro x hx
        have h := List.all_takeWhile (l := c :: t) (p := (· != d))
        have := List.all_eq_true.1 h x hx
        simpa using this
      have happ := List.takeWhile_append_dropWhile (l := c :: t) (p := (· != d))
      cases he : (c :: t).dropWhile (· != d) with
      | nil =>
        simp only
        rw [he, List.append_nil] at happ
        conv => lhs; rw [← happ]
        rw [happ] at htw hno ⊢
        exact .last htw hno
      | cons x rest =>
        simp only
        have hx : x = d := by
          have := List.head?_dropWhile_not (· != d) (c :: t)
          rw [he] at this
          simpa using this
        have hr : rest.length < fuel := by
          have h1 : (x :: rest).length ≤ (c :: t).length := by
            rw [← he]; exact (List.dropWhile_sublist _).length_le
          simp only [List.length_cons] at h1 hlen
          omega
        conv => lhs; rw [← happ, he]
        exact .piece htw hno hx (splitLoop_pieces d fuel rest hr)

theorem split_pieces (d : Char) (s : List Char) : Pieces (· = d) s (split d s) :=
  splitLoop_pieces d _ s (Nat.lt_succ_self _)

theorem split_eq {d : Char} {s : List Char} {ps : List (List Char)} :
    split d s = ps ↔ Pieces (· = d) s ps :=
  ⟨fun h => h ▸ split_pieces d s, fun h => Pieces.unique (split_pieces d s) h⟩

/-! ## Identifiers -/

theorem isAlpha_eq (c : Char) : isAlpha c = c.isAlpha := by
  rw [Bool.eq_iff_iff]
  simp only [isAlpha, Char.isAlpha, Char.isUpper, Char.isLower, Char.le_def, Bool.or_eq_true,
    Bool.and_eq_true, decide_eq_true_eq, ge_iff_le]
  exact Or.comm

theorem isAlphaNumUnderscore_iff (c : Char) :
    isAlphaNumUnderscore c = true ↔ (c.isAlphanum = true ∨ c = '_') := by
  simp only [isAlphaNumUnderscore, Char.isAlphanum, Char.isAlpha, Char.isDigit, Char.isUpper,
    Char.isLower, Char.le_def, Bool.or_eq_true, Bool.and_eq_true, decide_eq_true_eq, ge_iff_le]
  constructor
  · rintro (((h | h) | h) | h)
    · exact .inl (.inl (.inr h))
    · exact .inl (.inl (.inl h))
    · exact .inl (.inr h)
    · exact .inr h
  · rintro (((h | h) | h) | h)
    · exact .inl (.inl (.inr h))
    · exact .inl (.inl (.inl h))
    · exact .inl (.inr h)
    · exact .inr h

theorem isValidIdentifier_iff (s : List Char) : isValidIdentifier s = true ↔ Ident s := by
  cases s with
  | nil => simp [isValidIdentifier, Ident]
  | cons c t =>
    simp only [isValidIdentifier, Bool.and_eq_true, List.all_eq_true, isAlpha_eq,
      isAlphaNumUnderscore_iff, Ident]
    constructor
    · rintro ⟨h1, h2⟩; exact ⟨c, t, rfl, h1, h2⟩
    · rintro ⟨c', t', e, h1, h2⟩
      injection e with e1 e2
      subst e1; subst e2
      exact ⟨h1, h2⟩

/-- No letter, digit or underscore is one of the separators. -/
theorem Ident.clean {s : List Char} (h : Ident s) : ∀ c ∈ s, ¬ c = ':' ∧ ¬ c = ';' := by
  obtain ⟨c, t, rfl, h1, h2⟩ := h
  intro x hx
  rcases List.mem_cons.1 hx with e | hx
  · subst e
    constructor <;> (intro e; subst e; revert h1; decide)
  · rcases h2 x hx with h | h
    · constructor <;> (intro e; subst e; revert h; decide)
    · subst h; decide

theorem Ident.ne_nil {s : List Char} (h : Ident s) : s ≠ [] := by
  obtain ⟨c, t, rfl, _⟩ := h; simp

/-! ## Modifiers and types -/

theorem modifiers_ok (n : List Char) :
    ∀ (mods : List (List Char)) (o e o' e' : Bool),
      modifiers n o e mods = .ok (o', e') ↔
        (List.Perm mods ((if (o' && !o) then ["opt".toList] else []) ++
          (if (e' && !e) then ["empty".toList] else [])) ∧ (o = true → o' = true) ∧
          (e = true → e' = true))
  | [], o, e, o', e' => by
    cases o <;> cases e <;> cases o' <;> cases e' <;>
      simp [modifiers, List.nil_perm]
  | m :: t, o, e, o', e' => by
    have hne : "opt".toList ≠ "empty".toList := by decide
    unfold modifiers
    by_cases h1 : m = "opt".toList
    · rw [if_pos h1, h1]
      cases o with
      | true =>
        rw [if_pos rfl]
        constructor
        · intro h; cases h
        · rintro ⟨h, _, _⟩
          have := h.mem_iff.1 (List.mem_cons_self ..)
          revert this
          cases e' <;> cases e <;> simp
      | false =>
        rw [if_neg (by simp), modifiers_ok n t true e o' e']
        cases o' with
        | true => simp
        | false =>
          simp only [Bool.false_and, Bool.not_true, Bool.not_false]
          constructor
          · rintro ⟨_, h, _⟩; simp at h
          · rintro ⟨h, _, _⟩
            have := h.mem_iff.1 (List.mem_cons_self ..)
            revert this
            cases e' <;> cases e <;> simp
    · rw [if_neg h1]
      by_cases h2 : m = "empty".toList
      · rw [if_pos h2, h2]
        cases e with
        | true =>
          rw [if_pos rfl]
          constructor
          · intro h; cases h
          · rintro ⟨h, _, _⟩
            have := h.mem_iff.1 (List.mem_cons_self ..)
            revert this
            cases o' <;> cases o <;> simp
        | false =>
          rw [if_neg (by simp), modifiers_ok n t o true o' e']
          cases e' with
          | true =>
            simp only [Bool.not_true, Bool.and_false, Bool.not_false, Bool.and_true, if_true,
              List.append_nil, Bool.false_eq_true, if_false]
            constructor
            · rintro ⟨h, h3, _⟩
              exact ⟨(List.Perm.cons _ h).trans (List.perm_append_singleton _ _).symm, h3, by simp⟩
            · rintro ⟨h, h3, _⟩
              exact ⟨(List.perm_cons _).1 (h.trans (List.perm_append_singleton _ _)), h3, by simp⟩
          | false =>
            constructor
            · rintro ⟨_, _, h⟩; simp at h
            · rintro ⟨h, _, _⟩
              have := h.mem_iff.1 (List.mem_cons_self ..)
              revert this
              cases o' <;> cases o <;> simp
      · rw [if_neg h2]
        constructor
        · intro h; cases h
        · rintro ⟨h, _, _⟩
          have := h.mem_iff.1 (List.mem_cons_self ..)
          revert this
          cases o' <;> cases o <;> cases e' <;> cases e <;> simp [h1, h2] <;> 
            first | exact h1 | exact h2 | exact ⟨h1, h2⟩

theorem modifiers_cases (n : List Char) :
    ∀ (mods : List (List Char)) (o e : Bool),
      (∃ p, modifiers n o e mods = .ok p) ∨ ∃ msg, modifiers n o e mods = .err msg
  | [], o, e => .inl ⟨_, rfl⟩
  | m :: t, o, e => by
    unfold modifiers
    split
    · split
      · exact .inr ⟨_, rfl⟩
      · exact modifiers_cases n t _ _
    · split
      · split
        · exact .inr ⟨_, rfl⟩
        · exact modifiers_cases n t _ _
      · exact .inr ⟨_, rfl⟩

theorem typeOfName_iff {api : Int} (ha : api = 3 ∨ api = 4) (t : List Char) (pt : PType) :
    typeOfName api t = some pt ↔ ∃ tn, (tn, pt) ∈ types api ∧ t = tn.toList := by
  constructor
  · intro h
    rcases ha with rfl | rfl
    · simp only [typeOfName, gt_iff_lt, Int.lt_irrefl, and_false, true_and, false_or,
        if_false] at h
      repeat' split at h
      all_goals first
        | (cases h; done)
        | (injection h with h; subst h
           refine ⟨String.ofList t, ?_, (String.toList_ofList).symm⟩
           next e => rw [e]; decide)
    · simp only [typeOfName, show (4 : Int) > 3 from by decide, and_true,
        show ¬ (4 : Int) = 3 from by decide, false_and, or_false] at h
      repeat' split at h
      all_goals first
        | (cases h; done)
        | (injection h with h; subst h
           refine ⟨String.ofList t, ?_, (String.toList_ofList).symm⟩
           next e => rw [e]; decide)
  · rintro ⟨tn, h, rfl⟩
    rcases ha with rfl | rfl
    · simp only [types, if_true, List.mem_cons, Prod.mk.injEq, List.not_mem_nil, or_false] at h
      rcases h with ⟨rfl, rfl⟩ | ⟨rfl, rfl⟩ | ⟨rfl, rfl⟩ | ⟨rfl, rfl⟩ | ⟨rfl, rfl⟩ | ⟨rfl, rfl⟩ <;>
        decide
    · rw [types, if_neg (by decide)] at h
      simp only [List.mem_cons, Prod.mk.injEq, List.not_mem_nil, or_false] at h
      rcases h with ⟨rfl, rfl⟩ | ⟨rfl, rfl⟩ | ⟨rfl, rfl⟩ | ⟨rfl, rfl⟩ | ⟨rfl, rfl⟩ | ⟨rfl, rfl⟩ |
        ⟨rfl, rfl⟩ | ⟨rfl, rfl⟩ <;> decide

theorem types_names {api : Int} {tn : String} {pt : PType} (h : (tn, pt) ∈ types api) :
    tn.toList.length ≥ 1 ∧ (∀ c ∈ tn.toList, c ≠ ']' ∧ ¬ c = ':' ∧ ¬ c = ';') ∧
      pt ≠ .unset := by
  have h' : (tn, pt) ∈ types 3 ∨ (tn, pt) ∈ types 4 := by
    unfold types at *
    split at h
    · exact .inl (by rw [if_pos rfl]; exact h)
    · exact .inr (by rw [if_neg (by decide)]; exact h)
  revert h'
  have h3 : ∀ x ∈ types 3, x.1.toList.length ≥ 1 ∧ (∀ c ∈ x.1.toList, c ≠ ']' ∧ ¬ c = ':' ∧ ¬ c = ';') ∧
      x.2 ≠ .unset := by decide
  have h4 : ∀ x ∈ types 4, x.1.toList.length ≥ 1 ∧ (∀ c ∈ x.1.toList, c ≠ ']' ∧ ¬ c = ':' ∧ ¬ c = ';') ∧
      x.2 ≠ .unset := by decide
  rintro (h | h)
  · exact h3 _ h
  · exact h4 _ h

theorem stripArray_spec {tn : List Char} (h1 : tn.length ≥ 1) (h2 : ∀ c ∈ tn, c ≠ ']')
    (arr : Bool) :
    stripArray (tn ++ (if arr then "[]".toList else [])) = (tn, arr) := by
  cases arr with
  | true =>
    have e : (tn ++ "[]".toList).length - 2 = tn.length := by
      rw [List.length_append]; rfl
    have e2 : (tn ++ "[]".toList).length > 2 := by
      rw [List.length_append, show "[]".toList.length = 2 from rfl]; omega
    simp only [if_true]
    unfold stripArray
    rw [e, List.drop_left, List.take_left, if_pos ⟨e2, rfl⟩]
  | false =>
    simp only [Bool.false_eq_true, if_false, List.append_nil]
    unfold stripArray
    rw [if_neg]
    rintro ⟨_, h⟩
    have : ']' ∈ tn := List.mem_of_mem_drop (h ▸ (by decide : ']' ∈ "[]".toList))
    exact h2 _ this rfl

theorem stripArray_eq {t : List Char} :
    t = (stripArray t).1 ++ (if (stripArray t).2 then "[]".toList else []) := by
  unfold stripArray
  split
  · next h => simp only [if_true]; rw [← h.2, List.take_append_drop]
  · simp

/-! ## One argument -/

theorem parseTyped_iff {api : Int} (ha : api = 3 ∨ api = 4) (n t : List Char)
    (mods : List (List Char)) (a : FArg) :
    parseTyped api n t mods = .ok a ↔
      ∃ (tn : String) (pt : PType) (arr empty opt : Bool), Ident n ∧ (tn, pt) ∈ types api ∧
        t = tn.toList ++ (if arr then "[]".toList else []) ∧
        List.Perm mods ((if opt then ["opt".toList] else []) ++
          (if empty then ["empty".toList] else [])) ∧ (empty = true → arr = true) ∧
        a = ⟨String.ofList n, pt, arr, empty, opt⟩ := by
  unfold parseTyped
  simp only
  constructor
  · intro h
    cases ht : typeOfName api (stripArray t).1 with
    | none => rw [ht] at h; cases h
    | some pt =>
      rw [ht] at h
      simp only at h
      obtain ⟨tn, htn, he⟩ := (typeOfName_iff ha _ _).1 ht
      rcases modifiers_cases n mods false false with ⟨⟨o, e⟩, hm⟩ | ⟨msg, hm⟩
      · rw [hm, Res.bind_ok] at h
        split at h
        · cases h
        · next hi =>
          split at h
          · cases h
          · next hea =>
            injection h with h
            have hperm := (modifiers_ok n mods false false o e).1 hm
            simp only [Bool.not_false, Bool.and_true] at hperm
            refine ⟨tn, pt, (stripArray t).2, e, o, (isValidIdentifier_iff n).1 (by simpa using hi),
              htn, ?_, hperm.1, ?_, h.symm⟩
            · rw [← he]; exact stripArray_eq
            · intro hee; simpa [hee] using hea
      · rw [hm] at h; cases h
  · rintro ⟨tn, pt, arr, empty, opt, hid, htn, rfl, hperm, hea, rfl⟩
    have hn := types_names htn
    rw [stripArray_spec hn.1 (fun c hc => (hn.2.1 c hc).1)]
    simp only
    rw [(typeOfName_iff ha _ pt).2 ⟨tn, htn, rfl⟩]
    simp only
    rw [(modifiers_ok n mods false false opt empty).2 ⟨by simpa using hperm, by simp, by simp⟩,
      Res.bind_ok, (isValidIdentifier_iff n).2 hid]
    simp only [Bool.not_true, Bool.false_eq_true, if_false]
    rw [if_neg]
    intro h
    cases empty with
    | false => simp at h
    | true => rw [hea rfl] at h; simp at h

theorem parseTyped_cases (api : Int) (n t : List Char) (mods : List (List Char)) :
    (∃ a, parseTyped api n t mods = .ok a) ∨ ∃ msg, parseTyped api n t mods = .err msg := by
  unfold parseTyped
  simp only
  split
  · exact .inr ⟨_, rfl⟩
  · rcases modifiers_cases n mods false false with ⟨p, hm⟩ | ⟨msg, hm⟩
    · rw [hm, Res.bind_ok]
      split
      · exact .inr ⟨_, rfl⟩
      · split
        · exact .inr ⟨_, rfl⟩
        · exact .inl ⟨_, rfl⟩
    · rw [hm]; exact .inr ⟨_, rfl⟩

theorem parseArg_iff {api : Int} (ha : api = 3 ∨ api = 4) (s : List Char) (a : FArg) :
    parseArg api s = .ok a ↔ Describes api s a := by
  have hp := split_pieces ':' s
  constructor
  · intro h
    unfold parseArg at h
    split at h
    · cases h
    · next n hs =>
      rw [hs] at hp
      split at h
      · next e =>
        injection h with h
        rw [← h, show (⟨"", .unset, false, false, false⟩ : FArg) = anyArg from rfl]
        exact .any (e ▸ hp)
      · cases h
    · next n t mods hs =>
      rw [hs] at hp
      obtain ⟨tn, pt, arr, empty, opt, h1, h2, h3, h4, h5, h6⟩ := (parseTyped_iff ha n t mods a).1 h
      rw [h6]
      exact .arg hp h1 h2 h3 h4 h5
  · intro h
    unfold parseArg
    cases h with
    | any h =>
      rw [Pieces.unique hp h]
      rfl
    | @arg n t tn pt mods arr empty opt h h1 h2 h3 h4 h5 =>
      rw [Pieces.unique hp h]
      exact (parseTyped_iff ha n t mods _).2 ⟨tn, pt, arr, empty, opt, h1, h2, h3, h4, h5, rfl⟩

theorem parseArg_cases (api : Int) (s : List Char) :
    (∃ a, parseArg api s = .ok a) ∨ ∃ msg, parseArg api s = .err msg := by
  unfold parseArg
  split
  · exact .inr ⟨_, rfl⟩
  · split
    · exact .inl ⟨_, rfl⟩
    · exact .inr ⟨_, rfl⟩
  · exact parseTyped_cases ..

theorem parseArgs_iff {api : Int} (ha : api = 3 ∨ api = 4) :
    ∀ (ps : List (List Char)) (args : List FArg),
      parseArgs api ps = .ok args ↔ Each (Describes api) ps args
  | [], args => by
    constructor
    · intro h; injection h with h; subst h; exact .nil
    · intro h; cases h; rfl
  | p :: ps, args => by
    unfold parseArgs
    constructor
    · intro h
      rcases parseArg_cases api p with ⟨a, h1⟩ | ⟨msg, h1⟩
      · rw [h1, Res.bind_ok] at h
        cases h2 : parseArgs api ps with
        | ok r =>
          rw [h2, Res.bind_ok] at h
          injection h with h
          rw [← h]
          exact .cons ((parseArg_iff ha p a).1 h1) ((parseArgs_iff ha ps r).1 h2)
        | err _ => rw [h2] at h; cases h
        | fatal _ => rw [h2] at h; cases h
        | ub => rw [h2] at h; cases h
      · rw [h1] at h; cases h
    · intro h
      cases h with
      | cons h1 h2 =>
        rw [(parseArg_iff ha p _).2 h1, Res.bind_ok, (parseArgs_iff ha ps _).2 h2, Res.bind_ok]

theorem parseArgs_cases (api : Int) :
    ∀ (ps : List (List Char)),
      (∃ a, parseArgs api ps = .ok a) ∨ ∃ msg, parseArgs api ps = .err msg
  | [] => .inl ⟨_, rfl⟩
  | p :: ps => by
    unfold parseArgs
    rcases parseArg_cases api p with ⟨a, h1⟩ | ⟨msg, h1⟩
    · rw [h1, Res.bind_ok]
      rcases parseArgs_cases api ps with ⟨r, h2⟩ | ⟨msg, h2⟩
      · rw [h2]; exact .inl ⟨_, rfl⟩
      · rw [h2]; exact .inr ⟨_, rfl⟩
    · rw [h1]; exact .inr ⟨_, rfl⟩

theorem parseArgString_iff {api : Int} (ha : api = 3 ∨ api = 4) (s : String) (args : List FArg) :
    parseArgString api s = .ok args ↔ Signature api s args := by
  unfold parseArgString Signature
  rw [parseArgs_iff ha]
  constructor
  · intro h; exact ⟨_, split_pieces ';' _, h⟩
  · rintro ⟨ps, h1, h2⟩
    rw [split_eq.2 h1]; exact h2

theorem parseArgString_cases (api : Int) (s : String) :
    (∃ a, parseArgString api s = .ok a) ∨ ∃ msg, parseArgString api s = .err msg :=
  parseArgs_cases api _

/-! ## Printing -/

/-- What is known about a parsed argument. -/
structure GoodArg (a : FArg) : Prop where
  ident : Ident a.name.toList
  empty : a.empty = true → a.arr = true

theorem describes_good {api : Int} {s : List Char} {a : FArg} (h : Describes api s a) :
    a = anyArg ∨ GoodArg a := by
  cases h with
  | any _ => exact .inl rfl
  | arg _ h1 _ _ _ h5 =>
    refine .inr ⟨?_, h5⟩
    simpa using h1

theorem each_mem {α β : Type} {R : α → β → Prop} {l : List α} {m : List β} (h : Each R l m) :
    ∀ b ∈ m, ∃ a ∈ l, R a b := by
  induction h with
  | nil => intro b hb; cases hb
  | cons h1 _ ih =>
    intro b hb
    rcases List.mem_cons.1 hb with e | hb
    · subst e; exact ⟨_, List.mem_cons_self .., h1⟩
    · obtain ⟨a, ha, hr⟩ := ih b hb
      exact ⟨a, List.mem_cons_of_mem _ ha, hr⟩

/-- The text of an argument without the final semicolon. -/
def body (tn : PType → List Char) (a : FArg) : List Char :=
  a.name.toList ++ ':' :: (tn a.type ++ (if a.arr then "[]".toList else []) ++
    ((if a.opt then ":opt".toList else []) ++ (if a.empty then ":empty".toList else [])))

theorem printArg_body (tn : PType → List Char) (a : FArg) : printArg tn a = body tn a ++ [';'] := by
  simp only [printArg, body, List.append_assoc, List.cons_append, List.nil_append]

/-- The printed modifiers. -/
def modsOf (a : FArg) : List (List Char) :=
  (if a.opt then ["opt".toList] else []) ++ (if a.empty then ["empty".toList] else [])

theorem mods_pieces (p : List Char) (hp : p ≠ []) (hc : ∀ c ∈ p, ¬ c = ':') (o e : Bool) :
    Pieces (· = ':') (p ++ ((if o then ":opt".toList else []) ++
      (if e then ":empty".toList else [])))
      (p :: ((if o then ["opt".toList] else []) ++ (if e then ["empty".toList] else []))) := by
  have h1 : Pieces (· = ':') "opt".toList ["opt".toList] := .last (by decide) (by decide)
  have h2 : Pieces (· = ':') "empty".toList ["empty".toList] := .last (by decide) (by decide)
  cases o <;> cases e
  · simpa using Pieces.last hp hc
  · have := Pieces.piece (c := ':') hp hc rfl h2
    exact this
  · have := Pieces.piece (c := ':') hp hc rfl h1
    exact this
  · have h3 : Pieces (· = ':') ("opt".toList ++ ':' :: "empty".toList) ["opt".toList, "empty".toList] :=
      .piece (by decide) (by decide) rfl h2
    have := Pieces.piece (c := ':') hp hc rfl h3
    exact this

theorem body_describes {api : Int} {tn : PType → List Char} {a : FArg} (hg : GoodArg a)
    {s : String} (hs : (s, a.type) ∈ types api) (ht : tn a.type = s.toList) :
    Describes api (body tn a) a := by
  have hn := types_names hs
  have hne : s.toList ++ (if a.arr then "[]".toList else []) ≠ [] := by
    intro h
    have := (List.append_eq_nil_iff.1 h).1
    rw [this] at hn
    exact absurd hn.1 (by simp)
  have hcol : ∀ c ∈ s.toList ++ (if a.arr then "[]".toList else []), ¬ c = ':' := by
    intro c hc
    rcases List.mem_append.1 hc with h | h
    · exact (hn.2.1 c h).2.1
    · revert h
      cases a.arr
      · simp
      · intro h e; subst e; revert h; decide
  have hp : Pieces (· = ':') (body tn a)
      (a.name.toList :: (s.toList ++ (if a.arr then "[]".toList else [])) :: modsOf a) := by
    unfold body
    refine .piece (Ident.ne_nil hg.ident) (fun c hc => (Ident.clean hg.ident c hc).1) rfl ?_
    rw [ht]
    exact mods_pieces _ hne hcol a.opt a.empty
  have := Describes.arg (arr := a.arr) (empty := a.empty) (opt := a.opt) hp hg.ident hs rfl
    (List.Perm.refl _) hg.empty
  rw [String.ofList_toList] at this
  exact this

theorem body_clean {tn : PType → List Char} {a : FArg} (hg : GoodArg a)
    (ht : ∀ c ∈ tn a.type, ¬ c = ';') : body tn a ≠ [] ∧ ∀ c ∈ body tn a, ¬ c = ';' := by
  constructor
  · unfold body; simp
  · intro c hc
    unfold body at hc
    simp only [List.mem_append, List.mem_cons] at hc
    rcases hc with h | h | ((h | h) | (h | h))
    · exact (Ident.clean hg.ident c h).2
    · subst h; decide
    · exact ht c h
    · revert h; cases a.arr
      · simp
      · intro h e; subst e; revert h; decide
    · revert h; cases a.opt
      · simp
      · intro h e; subst e; revert h; decide
    · revert h; cases a.empty
      · simp
      · intro h e; subst e; revert h; decide

/-- A printed argument list reads back as the same list. -/
theorem print_signature {api : Int} {tn : PType → List Char} :
    ∀ (args : List FArg), (∀ a ∈ args, GoodArg a ∧ ∃ s, (s, a.type) ∈ types api ∧
        tn a.type = s.toList) →
      ∃ ps, Pieces (· = ';') (printArgs tn args) ps ∧ Each (Describes api) ps args
  | [], _ => ⟨[], .nil, .nil⟩
  | a :: t, h => by
    obtain ⟨ps, h1, h2⟩ := print_signature t (fun b hb => h b (List.mem_cons_of_mem _ hb))
    obtain ⟨hg, s, hs, ht⟩ := h a (List.mem_cons_self ..)
    have hn := types_names hs
    have hc := body_clean (tn := tn) hg (by rw [ht]; exact fun c hc => (hn.2.1 c hc).2.2)
    refine ⟨body tn a :: ps, ?_, .cons (body_describes hg hs ht) h2⟩
    unfold printArgs
    rw [printArg_body, List.append_assoc]
    exact .piece hc.1 hc.2 rfl h1

end VS.Plugin
