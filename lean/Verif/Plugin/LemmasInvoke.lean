import Verif.Plugin.Lemmas

/-! # Helper lemmas for argument checking -/

namespace VS.Plugin
open VS VS.Plugin.Spec
open VS.Map (PType)

/-- An argument list as registration leaves it. -/
def GoodSig (sig : List FArg) : Prop := ∀ a ∈ sig, a = anyArg ∨ (GoodArg a ∧ a.type ≠ .unset)

theorem typeOfName_ne_unset {api : Int} {t : List Char} {pt : PType}
    (h : typeOfName api t = some pt) : pt ≠ .unset := by
  unfold typeOfName at h
  repeat' split at h
  all_goals first
    | (cases h; done)
    | (injection h with h; subst h; decide)

theorem parseTyped_good {api : Int} {n t : List Char} {mods : List (List Char)} {a : FArg}
    (h : parseTyped api n t mods = .ok a) : GoodArg a ∧ a.type ≠ .unset := by
  unfold parseTyped at h
  simp only at h
  cases ht : typeOfName api (stripArray t).1 with
  | none => rw [ht] at h; cases h
  | some pt =>
    rw [ht] at h
    simp only at h
    rcases modifiers_cases n mods false false with ⟨⟨o, e⟩, hm⟩ | ⟨msg, hm⟩
    · rw [hm, Res.bind_ok] at h
      split at h
      · cases h
      · next hi =>
        split at h
        · cases h
        · next hea =>
          injection h with h
          subst h
          refine ⟨⟨?_, ?_⟩, typeOfName_ne_unset ht⟩
          · simpa using (isValidIdentifier_iff n).1 (by simpa using hi)
          · intro hee
            simp only at hee hea ⊢
            simpa [hee] using hea
    · rw [hm] at h; cases h

theorem parseArg_good {api : Int} {s : List Char} {a : FArg} (h : parseArg api s = .ok a) :
    a = anyArg ∨ (GoodArg a ∧ a.type ≠ .unset) := by
  unfold parseArg at h
  split at h
  · cases h
  · split at h
    · injection h with h; exact .inl h.symm
    · cases h
  · exact .inr (parseTyped_good h)

theorem parseArgs_good {api : Int} :
    ∀ {ps : List (List Char)} {args : List FArg}, parseArgs api ps = .ok args → GoodSig args
  | [], args, h => by
    injection h with h; subst h
    intro a ha; cases ha
  | p :: ps, args, h => by
    unfold parseArgs at h
    rcases parseArg_cases api p with ⟨a, h1⟩ | ⟨msg, h1⟩
    · rw [h1, Res.bind_ok] at h
      rcases parseArgs_cases api ps with ⟨r, h2⟩ | ⟨msg, h2⟩
      · rw [h2, Res.bind_ok] at h
        injection h with h
        subst h
        intro b hb
        rcases List.mem_cons.1 hb with e | hb
        · subst e; exact parseArg_good h1
        · exact parseArgs_good h2 b hb
      · rw [h2] at h; cases h
    · rw [h1] at h; cases h

theorem parseArgString_good {api : Int} {s : String} {args : List FArg}
    (h : parseArgString api s = .ok args) : GoodSig args := parseArgs_good h

theorem typeOfName_zero {t : List Char} {pt : PType} (h : typeOfName 0 t = some pt) :
    typeOfName 4 t = some pt := by
  have e : ∀ p : Prop, (p ∧ (0 : Int) > 3) = False := by intro p; simp
  have e2 : ∀ p : Prop, ((0 : Int) = 3 ∧ p) = False := by intro p; simp
  unfold typeOfName at h
  simp only [e, e2, or_self, if_false] at h
  repeat' split at h
  all_goals first
    | (cases h; done)
    | (injection h with h; subst h; next e => rw [e]; decide)

theorem parseTyped_zero {n t : List Char} {mods : List (List Char)} {a : FArg}
    (h : parseTyped 0 n t mods = .ok a) : parseTyped 4 n t mods = .ok a := by
  unfold parseTyped at *
  simp only at *
  cases ht : typeOfName 0 (stripArray t).1 with
  | none => rw [ht] at h; cases h
  | some pt => rw [ht] at h; rw [typeOfName_zero ht]; exact h

theorem parseArg_zero {s : List Char} {a : FArg} (h : parseArg 0 s = .ok a) :
    parseArg 4 s = .ok a := by
  unfold parseArg at *
  split at h
  · cases h
  · exact h
  · exact parseTyped_zero h

theorem parseArgs_zero :
    ∀ {ps : List (List Char)} {args : List FArg}, parseArgs 0 ps = .ok args →
      parseArgs 4 ps = .ok args
  | [], _, h => h
  | p :: ps, args, h => by
    unfold parseArgs at h ⊢
    rcases parseArg_cases 0 p with ⟨a, h1⟩ | ⟨msg, h1⟩
    · rw [h1, Res.bind_ok] at h
      rw [parseArg_zero h1, Res.bind_ok]
      rcases parseArgs_cases 0 ps with ⟨r, h2⟩ | ⟨msg, h2⟩
      · rw [h2, Res.bind_ok] at h
        rw [parseArgs_zero h2, Res.bind_ok]
        exact h
      · rw [h2] at h; cases h
    · rw [h1] at h; cases h

theorem remap_good {a : FArg} (h : GoodArg a) : VS.Map.remapColorRange a.name = a.name := by
  unfold VS.Map.remapColorRange
  rw [if_neg]
  intro e
  obtain ⟨c, t, h1, h2, _⟩ := h.ident
  rw [e] at h1
  have : c = '_' := by
    have h3 : "_ColorRange".toList = '_' :: "ColorRange".toList := rfl
    rw [h3] at h1
    injection h1 with h1 _
    exact h1.symm
  rw [this] at h2
  revert h2; decide

theorem amap_find_mem {m : AMap} {k : String} {v : PType × Nat} (h : m.find k = some v) :
    (k, v) ∈ m := by
  induction m with
  | nil => cases h
  | cons e m ih =>
    obtain ⟨k', v'⟩ := e
    unfold AMap.find at h
    split at h
    · next hk => injection h with h; subst hk; subst h; exact List.mem_cons_self ..
    · exact List.mem_cons_of_mem _ (ih h)

theorem amap_find_none {m : AMap} {k : String} (h : m.find k = none) : ∀ e ∈ m, e.1 ≠ k := by
  induction m with
  | nil => intro e he; cases he
  | cons e m ih =>
    obtain ⟨k', v'⟩ := e
    unfold AMap.find at h
    split at h
    · cases h
    · next hk =>
      intro x hx
      rcases List.mem_cons.1 hx with e | hx
      · subst e; exact hk
      · exact ih h x hx

/-- The checks a single declared argument has to pass. -/
def ArgOk (m : AMap) (a : FArg) : Prop :=
  a.type ≠ .unset →
    match m.find a.name with
    | none => a.opt = true
    | some (t, n) => t = a.type ∧ (a.arr = true ∨ n ≤ 1) ∧ (a.empty = true ∨ 1 ≤ n)

theorem leftOver_empty (kind : String) (l : List String) : leftOver kind l = "" ↔ l = [] := by
  cases l with
  | nil => simp [leftOver]
  | cons k t =>
    simp only [leftOver, reduceCtorEq, iff_false]
    intro h
    have := congrArg String.toList h
    simp [String.toList_append] at this

theorem append_ne_empty (a b : String) (hb : b ≠ "") : a ++ b ≠ "" := by
  intro h
  have h1 := congrArg String.toList h
  rw [String.toList_append, String.toList_empty, List.append_eq_nil_iff] at h1
  exact hb (by rw [← String.toList_inj, h1.2]; rfl)

/-- The loop finds nothing wrong exactly if all arguments pass and no key is left. -/
theorem checkLoop_iff (kind : String) (m : AMap) (hm : GoodMap m) :
    ∀ (sig : List FArg) (rem : List String), GoodSig sig →
      ∃ msg, checkLoop kind m rem sig = .ok msg ∧
        (msg = "" ↔ (∀ a ∈ sig, ArgOk m a) ∧
          ((∃ a ∈ sig, a.type = .unset) ∨
            ∀ k ∈ rem, ∃ a ∈ sig, a.type ≠ .unset ∧ a.name = k ∧ (m.find k).isSome))
  | [], rem, _ => by
    refine ⟨leftOver kind rem, rfl, ?_⟩
    rw [leftOver_empty]
    cases rem with
    | nil => simp
    | cons k t =>
      simp only [reduceCtorEq, false_iff]
      rintro ⟨_, ⟨a, ha, _⟩ | h⟩
      · cases ha
      · obtain ⟨a, ha, _⟩ := h k (List.mem_cons_self ..)
        cases ha
  | a :: sig, rem, hs => by
    have hs' : GoodSig sig := fun b hb => hs b (List.mem_cons_of_mem _ hb)
    unfold checkLoop
    by_cases ha : a.type = .unset
    · rw [if_pos ha]
      obtain ⟨msg, h1, h2⟩ := checkLoop_iff kind m hm sig [] hs'
      refine ⟨msg, h1, ?_⟩
      rw [h2]
      constructor
      · rintro ⟨h3, h4⟩
        refine ⟨?_, .inl ⟨a, List.mem_cons_self .., ha⟩⟩
        intro b hb
        rcases List.mem_cons.1 hb with e | hb
        · subst e; exact fun h => absurd ha h
        · exact h3 b hb
      · rintro ⟨h3, h4⟩
        exact ⟨fun b hb => h3 b (List.mem_cons_of_mem _ hb), .inr (by intro k hk; cases hk)⟩
    · rw [if_neg ha]
      have hga : GoodArg a := by
        rcases hs a (List.mem_cons_self ..) with e | h
        · exact absurd (by rw [e]; rfl) ha
        · exact h.1
      simp only
      unfold mapGetType
      rw [remap_good hga]
      cases hf : m.find a.name with
      | none =>
        simp only [ne_eq, not_true_eq_false, if_false]
        cases ho : a.opt with
        | false =>
          simp only [Bool.not_false, if_true]
          refine ⟨_, rfl, ?_⟩
          constructor
          · intro h; exact absurd h (append_ne_empty _ _ (by decide))
          · rintro ⟨h, _⟩
            have := h a (List.mem_cons_self ..) ha
            rw [hf] at this
            simp only at this
            rw [ho] at this
            cases this
        | true =>
          simp only [Bool.not_true, Bool.false_eq_true, if_false]
          obtain ⟨msg, h1, h2⟩ := checkLoop_iff kind m hm sig rem hs'
          refine ⟨msg, h1, ?_⟩
          rw [h2]
          have hok : ArgOk m a := by intro _; rw [hf]; exact ho
          constructor
          · rintro ⟨h3, h4⟩
            refine ⟨?_, ?_⟩
            · intro b hb
              rcases List.mem_cons.1 hb with e | hb
              · subst e; exact hok
              · exact h3 b hb
            · rcases h4 with ⟨b, hb, h⟩ | h4
              · exact .inl ⟨b, List.mem_cons_of_mem _ hb, h⟩
              · right; intro k hk
                obtain ⟨b, hb, h⟩ := h4 k hk
                exact ⟨b, List.mem_cons_of_mem _ hb, h⟩
          · rintro ⟨h3, h4⟩
            refine ⟨fun b hb => h3 b (List.mem_cons_of_mem _ hb), ?_⟩
            rcases h4 with ⟨b, hb, h⟩ | h4
            · rcases List.mem_cons.1 hb with e | hb
              · subst e; exact absurd h ha
              · exact .inl ⟨b, hb, h⟩
            · right; intro k hk
              obtain ⟨b, hb, h⟩ := h4 k hk
              rcases List.mem_cons.1 hb with e | hb
              · subst e
                obtain ⟨_, e2, h3⟩ := h
                rw [← e2, hf] at h3
                cases h3
              · exact ⟨b, hb, h⟩
      | some v =>
        have hv : v.1 ≠ .unset := hm.2 _ (amap_find_mem hf)
        simp only [ne_eq, hv, not_false_eq_true, if_true]
        by_cases hty : a.type = v.1
        · rw [if_neg (by simp [hty])]
          by_cases h1 : (!a.arr && decide (v.2 > 1)) = true
          · rw [if_pos h1]
            refine ⟨_, rfl, ?_⟩
            constructor
            · intro h; exact absurd h (append_ne_empty _ _ (by decide))
            · rintro ⟨h, _⟩
              have := h a (List.mem_cons_self ..) ha
              rw [hf] at this
              obtain ⟨t, n⟩ := v
              simp only [Bool.and_eq_true, Bool.not_eq_true', decide_eq_true_eq] at this h1
              rcases this.2.1 with h | h
              · rw [h] at h1; exact absurd h1.1 (by simp)
              · omega
          · rw [if_neg h1]
            by_cases h2 : (!a.empty && decide (v.2 < 1)) = true
            · rw [if_pos h2]
              refine ⟨_, rfl, ?_⟩
              constructor
              · intro h; exact absurd h (append_ne_empty _ _ (by decide))
              · rintro ⟨h, _⟩
                have := h a (List.mem_cons_self ..) ha
                rw [hf] at this
                obtain ⟨t, n⟩ := v
                simp only [Bool.and_eq_true, Bool.not_eq_true', decide_eq_true_eq] at this h2
                rcases this.2.2 with h | h
                · rw [h] at h2; exact absurd h2.1 (by simp)
                · omega
            · rw [if_neg h2]
              obtain ⟨msg, h3, h4⟩ := checkLoop_iff kind m hm sig (rem.filter (· ≠ a.name)) hs'
              refine ⟨msg, h3, ?_⟩
              rw [h4]
              have hok : ArgOk m a := by
                intro _
                rw [hf]
                obtain ⟨t, n⟩ := v
                simp only [Bool.and_eq_true, Bool.not_eq_true', decide_eq_true_eq, not_and] at *
                refine ⟨hty.symm, ?_, ?_⟩
                · cases h : a.arr with
                  | true => exact .inl rfl
                  | false => have := h1 h; right; omega
                · cases h : a.empty with
                  | true => exact .inl rfl
                  | false => have := h2 h; right; omega
              constructor
              · rintro ⟨h5, h6⟩
                refine ⟨?_, ?_⟩
                · intro b hb
                  rcases List.mem_cons.1 hb with e | hb
                  · subst e; exact hok
                  · exact h5 b hb
                · rcases h6 with ⟨b, hb, h⟩ | h6
                  · exact .inl ⟨b, List.mem_cons_of_mem _ hb, h⟩
                  · right; intro k hk
                    by_cases hka : k = a.name
                    · exact ⟨a, List.mem_cons_self .., ha, hka.symm, by rw [hka, hf]; rfl⟩
                    · obtain ⟨b, hb, h⟩ := h6 k (List.mem_filter.2 ⟨hk, by simp [hka]⟩)
                      exact ⟨b, List.mem_cons_of_mem _ hb, h⟩
              · rintro ⟨h5, h6⟩
                refine ⟨fun b hb => h5 b (List.mem_cons_of_mem _ hb), ?_⟩
                rcases h6 with ⟨b, hb, h⟩ | h6
                · rcases List.mem_cons.1 hb with e | hb
                  · subst e; exact absurd h ha
                  · exact .inl ⟨b, hb, h⟩
                · right; intro k hk
                  obtain ⟨hk, hka⟩ := List.mem_filter.1 hk
                  obtain ⟨b, hb, h⟩ := h6 k hk
                  rcases List.mem_cons.1 hb with e | hb
                  · subst e
                    exact absurd h.2.1.symm (by simpa using hka)
                  · exact ⟨b, hb, h⟩
        · rw [if_pos (by simp [hty])]
          refine ⟨_, rfl, ?_⟩
          constructor
          · intro h; exact absurd h (append_ne_empty _ _ (by decide))
          · rintro ⟨h, _⟩
            have := h a (List.mem_cons_self ..) ha
            rw [hf] at this
            obtain ⟨t, n⟩ := v
            exact absurd this.1.symm hty

theorem checkValues_iff (kind : String) {m : AMap} (hm : GoodMap m) {sig : List FArg}
    (hs : GoodSig sig) :
    ∃ msg, checkValues sig m kind = .ok msg ∧ (msg = "" ↔ Conforms sig m) := by
  obtain ⟨msg, h1, h2⟩ := checkLoop_iff kind m hm sig (m.map (·.1)) hs
  refine ⟨msg, h1, ?_⟩
  rw [h2]
  unfold Conforms
  constructor
  · rintro ⟨h3, h4⟩
    refine ⟨h3, ?_⟩
    rcases h4 with h4 | h4
    · exact .inl h4
    · right; intro e he
      obtain ⟨a, ha, h5, h6, _⟩ := h4 e.1 (List.mem_map_of_mem he)
      exact ⟨a, ha, h5, h6⟩
  · rintro ⟨h3, h4⟩
    refine ⟨h3, ?_⟩
    rcases h4 with h4 | h4
    · exact .inl h4
    · right; intro k hk
      obtain ⟨e, he, rfl⟩ := List.mem_map.1 hk
      obtain ⟨a, ha, h5, h6⟩ := h4 e he
      refine ⟨a, ha, h5, h6, ?_⟩
      cases hf : m.find e.1 with
      | some _ => rfl
      | none => exact absurd rfl (amap_find_none hf e he)

/-! ## Functions -/

theorem mkFunction_cases (api : Int) (n a r : String) (func : AMap → RMap) :
    (∃ f, mkFunction api n a r func = .ok f) ∨ ∃ msg, mkFunction api n a r func = .err msg := by
  unfold mkFunction
  rcases parseArgString_cases api a with ⟨x, h⟩ | ⟨msg, h⟩
  · rw [h, Res.bind_ok]
    unfold parseReturn
    split
    · rcases parseArgString_cases api r with ⟨y, h⟩ | ⟨msg, h⟩
      · rw [h]; exact .inl ⟨_, rfl⟩
      · rw [h]; exact .inr ⟨_, rfl⟩
    · exact .inl ⟨_, rfl⟩
  · rw [h]; exact .inr ⟨_, rfl⟩

/-- What registration leaves in a function object. -/
theorem mkFunction_inv {api : Int} {n a r : String} {func : AMap → RMap} {f : PFunc}
    (h : mkFunction api n a r func = .ok f) :
    f.name = n ∧ f.returnType = r ∧ f.func = func ∧ parseArgString api a = .ok f.inArgs ∧
      parseReturn api r = .ok f.retArgs ∧
      f.argString = if api = 3 then getV4ArgString f.inArgs else a := by
  unfold mkFunction at h
  rcases parseArgString_cases api a with ⟨x, h1⟩ | ⟨msg, h1⟩
  · rw [h1, Res.bind_ok] at h
    cases h2 : parseReturn api r with
    | ok y =>
      rw [h2, Res.bind_ok] at h
      injection h with h
      subst h
      exact ⟨rfl, rfl, rfl, h1, rfl, rfl⟩
    | err _ => rw [h2] at h; cases h
    | fatal _ => rw [h2] at h; cases h
    | ub => rw [h2] at h; cases h
  · rw [h1] at h; cases h

theorem parseReturn_good {api : Int} {r : String} {args : List FArg}
    (h : parseReturn api r = .ok args) : GoodSig args := by
  unfold parseReturn at h
  split at h
  · exact parseArgString_good h
  · injection h with h; subst h; intro a ha; cases ha

theorem checkReturn_ok {f : PFunc} (hs : GoodSig f.retArgs) {v : RMap} (hv : GoodMap v.entries) :
    ∃ w, checkReturn f v = .ok w ∧
      (w = [] ↔ (f.returnType = "any" ∨ v.error ≠ none ∨ Conforms f.retArgs v.entries)) := by
  unfold checkReturn
  split
  · next h =>
    obtain ⟨msg, h1, h2⟩ := checkValues_iff "return value" hv hs
    rw [h1, Res.bind_ok]
    refine ⟨_, rfl, ?_⟩
    split
    · next h3 =>
      constructor
      · intro e; cases e
      · rintro (h4 | h4 | h4)
        · exact absurd h4 h.1
        · exact absurd h.2 h4
        · exact absurd (h2.2 h4) h3
    · next h3 =>
      exact ⟨fun _ => .inr (.inr (h2.1 (by simpa using h3))), fun _ => rfl⟩
  · next h =>
    refine ⟨_, rfl, fun _ => ?_, fun _ => rfl⟩
    by_cases h1 : f.returnType = "any"
    · exact .inl h1
    · by_cases h2 : v.error = none
      · exact absurd ⟨h1, h2⟩ h
      · exact .inr (.inl h2)

end VS.Plugin
