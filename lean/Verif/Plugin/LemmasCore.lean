import Verif.Plugin.LemmasInvoke

/-! # Helper lemmas for the plugin table -/

namespace VS.Plugin
open VS VS.Plugin.Spec
open VS.Map (PType)

/-! ## Sorted tables -/

/-- Keys are strictly increasing. -/
def Sorted {α : Type} (l : List (String × α)) : Prop := l.Pairwise (fun a b => a.1 < b.1)

theorem Sorted.key_eq {α : Type} {l : List (String × α)} (h : Sorted l) {k : String} {v w : α}
    (h1 : (k, v) ∈ l) (h2 : (k, w) ∈ l) : v = w := by
  induction l with
  | nil => cases h1
  | cons e l ih =>
    obtain ⟨ha, hl⟩ := List.pairwise_cons.1 h
    rcases List.mem_cons.1 h1 with e1 | h1 <;> rcases List.mem_cons.1 h2 with e2 | h2
    · rw [← e1] at e2; injection e2 with _ e2; exact e2.symm
    · have := ha _ h2; rw [← e1] at this; exact absurd this (String.lt_irrefl _)
    · have := ha _ h1; rw [← e2] at this; exact absurd this (String.lt_irrefl _)
    · exact ih hl h1 h2

theorem lookup_mem {α : Type} {k : String} {v : α} :
    ∀ {l : List (String × α)}, lookup k l = some v → (k, v) ∈ l
  | [], h => by cases h
  | (k', v') :: t, h => by
    unfold lookup at h
    split at h
    · next e => injection h with h; subst e; subst h; exact List.mem_cons_self ..
    · exact List.mem_cons_of_mem _ (lookup_mem h)

theorem lookup_none {α : Type} {k : String} :
    ∀ {l : List (String × α)}, lookup k l = none → ∀ e ∈ l, e.1 ≠ k
  | [], _, e, he => by cases he
  | (k', v') :: t, h, e, he => by
    unfold lookup at h
    split at h
    · cases h
    · next hk =>
      rcases List.mem_cons.1 he with e1 | he
      · subst e1; exact hk
      · exact lookup_none h e he

theorem lookup_iff {α : Type} {k : String} {v : α} {l : List (String × α)} (hs : Sorted l) :
    lookup k l = some v ↔ (k, v) ∈ l := by
  constructor
  · exact lookup_mem
  · intro h
    cases hl : lookup k l with
    | none => exact absurd rfl (lookup_none hl _ h)
    | some w => rw [hs.key_eq (lookup_mem hl) h]

theorem mem_insertNew {α : Type} {k : String} {v : α} {e : String × α} :
    ∀ {l : List (String × α)}, lookup k l = none → (e ∈ insertNew k v l ↔ e = (k, v) ∨ e ∈ l)
  | [], _ => by simp [insertNew]
  | (k', v') :: t, h => by
    unfold lookup at h
    split at h
    · cases h
    · next hk =>
      unfold insertNew
      split
      · simp
      · simp only [List.mem_cons, mem_insertNew (l := t) h]
        constructor
        · rintro (h | h | h)
          · exact .inr (.inl h)
          · exact .inl h
          · exact .inr (.inr h)
        · rintro (h | h | h)
          · exact .inr (.inl h)
          · exact .inl h
          · exact .inr (.inr h)

theorem string_lt_of {a b : String} (h1 : ¬ a < b) (h2 : b ≠ a) : b < a := by
  rcases Decidable.em (b < a) with h | h
  · exact h
  · exact absurd (String.le_antisymm (by simpa using h1) (by simpa using h)) h2

theorem sorted_insertNew {α : Type} {k : String} {v : α} :
    ∀ {l : List (String × α)}, Sorted l → Sorted (insertNew k v l)
  | [], _ => by simp [insertNew, Sorted]
  | (k', v') :: t, h => by
    obtain ⟨ha, ht⟩ := List.pairwise_cons.1 h
    unfold insertNew
    split
    · next hlt =>
      refine List.pairwise_cons.2 ⟨?_, h⟩
      intro e he
      rcases List.mem_cons.1 he with e1 | he
      · subst e1; exact hlt
      · exact String.lt_trans hlt (ha e he)
    · next hnlt =>
      split
      · exact h
      · next hne =>
        refine List.pairwise_cons.2 ⟨?_, sorted_insertNew ht⟩
        intro e he
        by_cases hl : lookup k t = none
        · rcases (mem_insertNew hl).1 he with e1 | he
          · subst e1; exact string_lt_of hnlt hne
          · exact ha e he
        · have : ∀ {l : List (String × α)}, e ∈ insertNew k v l → e = (k, v) ∨ e ∈ l := by
            intro l
            induction l with
            | nil => intro h; left; simpa [insertNew] using h
            | cons x l ih =>
              obtain ⟨a, b⟩ := x
              intro h
              unfold insertNew at h
              split at h
              · rcases List.mem_cons.1 h with h | h
                · exact .inl h
                · exact .inr h
              · split at h
                · exact .inr h
                · rcases List.mem_cons.1 h with h | h
                  · exact .inr (h ▸ List.mem_cons_self ..)
                  · rcases ih h with h | h
                    · exact .inl h
                    · exact .inr (List.mem_cons_of_mem _ h)
          rcases this he with e1 | he
          · subst e1; exact string_lt_of hnlt hne
          · exact ha e he

theorem insertNew_lt {α : Type} {k k' : String} (h : k < k') (v v' : α) (t : List (String × α)) :
    insertNew k v ((k', v') :: t) = (k, v) :: (k', v') :: t := by
  rw [insertNew, if_pos h]

theorem insertNew_gt {α : Type} {k k' : String} (h : ¬ k < k') (h' : k' ≠ k) (v v' : α)
    (t : List (String × α)) : insertNew k v ((k', v') :: t) = (k', v') :: insertNew k v t := by
  rw [insertNew, if_neg h, if_neg h']

theorem insertNew_nil {α : Type} (k : String) (v : α) : insertNew k v [] = [(k, v)] := rfl

theorem update_keys {α : Type} (k : String) (v : α) :
    ∀ (l : List (String × α)), (update k v l).map (·.1) = l.map (·.1)
  | [] => rfl
  | (k', v') :: t => by
    unfold update
    split
    · rfl
    · simp [update_keys k v t]

theorem sorted_iff_keys {α : Type} (l : List (String × α)) :
    Sorted l ↔ (l.map (·.1)).Pairwise (· < ·) := by
  unfold Sorted; rw [List.pairwise_map]

theorem sorted_update {α : Type} {k : String} {v : α} {l : List (String × α)} (h : Sorted l) :
    Sorted (update k v l) := by
  rw [sorted_iff_keys, update_keys, ← sorted_iff_keys]; exact h

theorem mem_update {α : Type} {k : String} {v : α} {e : String × α} :
    ∀ {l : List (String × α)}, Sorted l →
      (e ∈ update k v l ↔ (e = (k, v) ∧ ∃ w, (k, w) ∈ l) ∨ (e ∈ l ∧ e.1 ≠ k))
  | [], _ => by simp [update]
  | (k', v') :: t, h => by
    obtain ⟨ha, ht⟩ := List.pairwise_cons.1 h
    unfold update
    split
    · next hk =>
      subst hk
      simp only [List.mem_cons]
      constructor
      · rintro (h1 | h1)
        · exact .inl ⟨h1, v', .inl rfl⟩
        · refine .inr ⟨.inr h1, ?_⟩
          intro e1
          have := ha e h1
          rw [e1] at this
          exact String.lt_irrefl _ this
      · rintro (⟨h1, _⟩ | ⟨h1 | h1, h2⟩)
        · exact .inl h1
        · subst h1; exact absurd rfl h2
        · exact .inr h1
    · next hk =>
      simp only [List.mem_cons, mem_update (l := t) ht]
      constructor
      · rintro (h1 | ⟨h1, w, hw⟩ | ⟨h1, h2⟩)
        · subst h1; exact .inr ⟨.inl rfl, hk⟩
        · exact .inl ⟨h1, w, .inr hw⟩
        · exact .inr ⟨.inr h1, h2⟩
      · rintro (⟨h1, w, hw | hw⟩ | ⟨h1 | h1, h2⟩)
        · injection hw with hw _; exact absurd hw.symm hk
        · exact .inr (.inl ⟨h1, w, hw⟩)
        · exact .inl h1
        · exact .inr (.inr ⟨h1, h2⟩)

theorem nextAfter_eq {α : Type} {k : String} :
    ∀ {l : List (String × α)}, Sorted l → (∃ w, (k, w) ∈ l) →
      nextAfter k l = ((l.filter fun e => decide (k < e.1)).head?).map (·.2)
  | [], _, ⟨_, h⟩ => by cases h
  | (k', v') :: t, h, ⟨w, hw⟩ => by
    obtain ⟨ha, ht⟩ := List.pairwise_cons.1 h
    unfold nextAfter
    split
    · next e =>
      subst e
      rw [List.filter_cons_of_neg (by simp [String.lt_irrefl])]
      rw [List.filter_eq_self.2]
      intro x hx
      simpa using ha x hx
    · next hk =>
      have hmem : (k, w) ∈ t := by
        rcases List.mem_cons.1 hw with e | h
        · injection e with e _; exact absurd e.symm hk
        · exact h
      rw [List.filter_cons_of_neg]
      · exact nextAfter_eq ht ⟨w, hmem⟩
      · have := ha _ hmem
        simp only [decide_eq_true_eq]
        exact fun h => String.lt_irrefl _ (String.lt_trans h this)

/-- Everything lies above the null pointer. -/
def Above (cur : Option String) (k : String) : Prop :=
  match cur with
  | none => True
  | some c => c < k

/-- The successor of a cursor. -/
def nextOf {α : Type} (cur : Option String) (l : List (String × α)) : Option α :=
  match cur with
  | none => (l.head?).map (·.2)
  | some c => nextAfter c l

theorem nextOf_filter {α : Type} {l : List (String × α)} (hs : Sorted l) (cur : Option String)
    (hc : ∀ c, cur = some c → ∃ w, (c, w) ∈ l) :
    ∃ f : String × α → Bool, (∀ e, f e = true ↔ Above cur e.1) ∧
      nextOf cur l = ((l.filter f).head?).map (·.2) := by
  cases cur with
  | none =>
    refine ⟨fun _ => true, by simp [Above], ?_⟩
    rw [List.filter_eq_self.2 (by simp)]
    rfl
  | some c =>
    exact ⟨fun e => decide (c < e.1), by simp [Above], nextAfter_eq hs (hc c rfl)⟩

theorem next_none {α : Type} {l : List (String × α)} (hs : Sorted l) {cur : Option String}
    (hc : ∀ c, cur = some c → ∃ w, (c, w) ∈ l) (h : nextOf cur l = none) :
    ∀ e ∈ l, ¬ Above cur e.1 := by
  obtain ⟨f, hf, e⟩ := nextOf_filter hs cur hc
  rw [e] at h
  intro x hx ha
  have hm : x ∈ l.filter f := List.mem_filter.2 ⟨hx, (hf x).2 ha⟩
  cases hl : l.filter f with
  | nil => rw [hl] at hm; cases hm
  | cons y t => rw [hl] at h; cases h

/-- The least entry above the cursor. -/
theorem next_some {α : Type} {l : List (String × α)} (hs : Sorted l) {cur : Option String}
    (hc : ∀ c, cur = some c → ∃ w, (c, w) ∈ l) {v : α} (h : nextOf cur l = some v) :
    ∃ k, (k, v) ∈ l ∧ Above cur k ∧ ∀ e ∈ l, Above cur e.1 → e.1 = k ∨ k < e.1 := by
  obtain ⟨f, hf, e⟩ := nextOf_filter hs cur hc
  rw [e] at h
  cases hl : l.filter f with
  | nil => rw [hl] at h; cases h
  | cons x t =>
    rw [hl] at h
    injection h with h
    have hx : x ∈ l.filter f := by rw [hl]; exact List.mem_cons_self ..
    obtain ⟨h1, h2⟩ := List.mem_filter.1 hx
    refine ⟨x.1, h ▸ h1, (hf x).1 h2, ?_⟩
    intro y hy ha
    have hy' : y ∈ l.filter f := List.mem_filter.2 ⟨hy, (hf y).2 ha⟩
    have hs' : Sorted (l.filter f) := List.Pairwise.filter _ hs
    rw [hl] at hy' hs'
    rcases List.mem_cons.1 hy' with e | hy'
    · exact .inl (by rw [e])
    · exact .inr ((List.pairwise_cons.1 hs').1 y hy')

/-! ## Plugins -/

/-- A function object as registration leaves it. -/
def FuncOk (p : Plugin) (k : String) (f : PFunc) : Prop :=
  f.name = k ∧ Ident k.toList ∧ ∃ api a r func, mkFunction api k a r func = .ok f ∧
    (api = 0 ∨ (p.hasConfig = true ∧ api = p.apiMajor))

/-- Invariant of a plugin object. -/
structure PInv (p : Plugin) : Prop where
  sorted : Sorted p.funcs
  funcs : ∀ k f, (k, f) ∈ p.funcs → FuncOk p k f
  fresh : p.hasConfig = false → p.apiMajor = 0 ∧ p.apiMinor = 0

theorem fresh_inv (a b c : String) : PInv (Plugin.fresh a b c) :=
  ⟨List.Pairwise.nil, (fun _ _ h => nomatch h), fun _ => ⟨rfl, rfl⟩⟩

/-- What a call of `registerFunction` does. -/
theorem register_cases (p : Plugin) (n a r : String) (func : AMap → RMap) :
    (∃ msg, p.register n a r func = (p, false, [msg]) ∧
      (p.readOnly = true ∨ ¬ Ident n.toList ∨ (lookup n p.funcs).isSome ∨
        ∃ e, mkFunction p.apiMajor n a r func = .err e)) ∨
    (∃ f, p.readOnly = false ∧ Ident n.toList ∧ lookup n p.funcs = none ∧
      mkFunction p.apiMajor n a r func = .ok f ∧
      p.register n a r func = ({ p with funcs := insertNew n f p.funcs }, true, [])) := by
  unfold Plugin.register
  by_cases h1 : p.readOnly = true
  · rw [if_pos h1]; exact .inl ⟨_, rfl, .inl h1⟩
  · rw [if_neg h1]
    by_cases h2 : isValidIdentifier n.toList = true
    · rw [if_neg (by simp [h2])]
      cases h3 : lookup n p.funcs with
      | some g => exact .inl ⟨_, rfl, .inr (.inr (.inl rfl))⟩
      | none =>
        rw [if_neg (by simp)]
        rcases mkFunction_cases p.apiMajor n a r func with ⟨f, h4⟩ | ⟨e, h4⟩
        · rw [h4]
          exact .inr ⟨f, by simpa using h1, (isValidIdentifier_iff _).1 h2, rfl, rfl, rfl⟩
        · rw [h4]
          exact .inl ⟨_, rfl, .inr (.inr (.inr ⟨e, rfl⟩))⟩
    · rw [if_pos (by simpa using h2)]
      exact .inl ⟨_, rfl, .inr (.inl (fun h => h2 ((isValidIdentifier_iff _).2 h)))⟩

theorem register_inv {p : Plugin} (h : PInv p) (n a r : String) (func : AMap → RMap) :
    PInv (p.register n a r func).1 := by
  rcases register_cases p n a r func with ⟨m, e, _⟩ | ⟨f, h1, h2, h3, h4, e⟩
  · rw [e]; exact h
  · rw [e]
    refine ⟨sorted_insertNew h.sorted, ?_, h.fresh⟩
    intro k g hg
    rcases (mem_insertNew h3).1 hg with e | hg
    · injection e with e1 e2
      subst e1; subst e2
      refine ⟨(mkFunction_inv h4).1, h2, _, _, _, _, h4, ?_⟩
      cases hc : p.hasConfig with
      | true => exact .inr ⟨rfl, rfl⟩
      | false => exact .inl (h.fresh hc).1
    · exact h.funcs k g hg

/-- The configuration of a plugin, apart from its functions. -/
def SameConfig (p q : Plugin) : Prop :=
  q.apiMajor = p.apiMajor ∧ q.apiMinor = p.apiMinor ∧ q.pluginVersion = p.pluginVersion ∧
    q.hasConfig = p.hasConfig ∧ q.readOnly = p.readOnly ∧ q.readOnlySet = p.readOnlySet ∧
    q.filename = p.filename ∧ q.fullname = p.fullname ∧ q.ns = p.ns ∧ q.id = p.id

theorem SameConfig.refl (p : Plugin) : SameConfig p p := by simp [SameConfig]

theorem SameConfig.trans {p q r : Plugin} (h1 : SameConfig p q) (h2 : SameConfig q r) :
    SameConfig p r := by
  simp only [SameConfig] at *
  grind

theorem register_same (p : Plugin) (n a r : String) (func : AMap → RMap) :
    SameConfig p (p.register n a r func).1 := by
  rcases register_cases p n a r func with ⟨m, e, _⟩ | ⟨f, _, _, _, _, e⟩
  · rw [e]; exact .refl p
  · rw [e]; simp [SameConfig]

theorem register_keeps (p : Plugin) (n a r : String) (func : AMap → RMap) :
    ∀ e ∈ p.funcs, e ∈ (p.register n a r func).1.funcs := by
  intro x hx
  rcases register_cases p n a r func with ⟨m, e, _⟩ | ⟨f, _, _, h3, _, e⟩
  · rw [e]; exact hx
  · rw [e]; exact (mem_insertNew h3).2 (.inr hx)

theorem config_ok {p q : Plugin} {i n f : String} {v a : Int} {fl : Nat}
    (h : p.config i n f v a fl = .ok q) :
    p.hasConfig = false ∧ q.hasConfig = true ∧ q.funcs = p.funcs ∧ q.readOnly = p.readOnly ∧
      q.filename = p.filename ∧ (q.id = if p.id = "" then i else p.id) ∧
      (q.ns = if p.ns = "" then n else p.ns) ∧ q.readOnlySet = decide (fl = 0) := by
  unfold Plugin.config at h
  split at h
  · cases h
  · next hc =>
    split at h
    · cases h
    · injection h with h
      subst h
      exact ⟨by simpa using hc, rfl, rfl, rfl, rfl, rfl, rfl, rfl⟩

theorem config_cases (p : Plugin) (i n f : String) (v a : Int) (fl : Nat) :
    (∃ q, p.config i n f v a fl = .ok q) ∨ ∃ m, p.config i n f v a fl = .fatal m := by
  unfold Plugin.config
  split
  · exact .inr ⟨_, rfl⟩
  · split
    · exact .inr ⟨_, rfl⟩
    · exact .inl ⟨_, rfl⟩

theorem config_inv {p q : Plugin} (h : PInv p) {i n f : String} {v a : Int} {fl : Nat}
    (e : p.config i n f v a fl = .ok q) : PInv q := by
  obtain ⟨h1, h2, h3, _⟩ := config_ok e
  refine ⟨h3 ▸ h.sorted, ?_, fun hc => by rw [h2] at hc; cases hc⟩
  intro k g hg
  rw [h3] at hg
  obtain ⟨h4, h5, api, x, r, func, h6, h7⟩ := h.funcs k g hg
  refine ⟨h4, h5, api, x, r, func, h6, ?_⟩
  rcases h7 with h7 | ⟨h7, _⟩
  · exact .inl h7
  · rw [h1] at h7; cases h7

theorem runInit_inv : ∀ {acts : List Act} {p q : Plugin}, PInv p → p.runInit acts = .ok q →
    PInv q ∧ q.filename = p.filename
  | [], p, q, h, e => by
    injection e with e; subst e; exact ⟨h, rfl⟩
  | .config i n f v a fl :: t, p, q, h, e => by
    unfold Plugin.runInit at e
    rcases config_cases p i n f v a fl with ⟨p', hp⟩ | ⟨m, hp⟩
    · rw [hp, Res.bind_ok] at e
      obtain ⟨h1, h2⟩ := runInit_inv (config_inv h hp) e
      exact ⟨h1, h2.trans (config_ok hp).2.2.2.2.1⟩
    · rw [hp] at e; cases e
  | .register n a r f :: t, p, q, h, e => by
    unfold Plugin.runInit at e
    obtain ⟨h1, h2⟩ := runInit_inv (register_inv h n a r f) e
    exact ⟨h1, h2.trans (register_same p n a r f).2.2.2.2.2.2.1⟩

theorem supported_major {a b : Int} (h : supported a b = true) : a = 3 ∨ a = 4 := by
  unfold supported at h
  simp only [Bool.or_eq_true, Bool.and_eq_true, decide_eq_true_eq] at h
  rcases h with h | h
  · exact .inr h.1
  · exact .inl h.1

/-- What is known about a plugin that has been loaded. -/
structure LInv (p : Plugin) : Prop extends PInv p where
  configured : p.hasConfig = true
  major : p.apiMajor = 3 ∨ p.apiMajor = 4

theorem load_inv {f n i : String} {l : Lib} {p : Plugin} (h : Plugin.load f n i l = .ok p) :
    LInv p ∧ (p.readOnlySet = true → p.readOnly = true) := by
  unfold Plugin.load at h
  split at h
  · cases h
  · split at h
    · cases h
    · next acts _ =>
      cases hr : (Plugin.fresh f n i).runInit acts with
      | ok q =>
        rw [hr, Res.bind_ok] at h
        simp only at h
        split at h
        · next hs =>
          injection h with h
          subst h
          obtain ⟨h1, _⟩ := runInit_inv (fresh_inv f n i) hr
          have hm := supported_major hs
          have hc : q.hasConfig = true := by
            cases hc : q.hasConfig with
            | true => rfl
            | false =>
              have := (h1.fresh hc).1
              rw [this] at hm
              omega
          exact ⟨⟨⟨h1.sorted, h1.funcs, h1.fresh⟩, hc, hm⟩, fun h => by simp only at h ⊢; simp [h]⟩
        · cases h
      | err _ => rw [hr] at h; cases h
      | fatal _ => rw [hr] at h; cases h
      | ub => rw [hr] at h; cases h

theorem runInit_names : ∀ {acts : List Act} {p q : Plugin}, p.runInit acts = .ok q →
    (p.id ≠ "" → q.id = p.id) ∧ (p.ns ≠ "" → q.ns = p.ns) ∧ q.filename = p.filename
  | [], p, q, e => by
    injection e with e; subst e; exact ⟨fun _ => rfl, fun _ => rfl, rfl⟩
  | .config i n f v a fl :: t, p, q, e => by
    unfold Plugin.runInit at e
    rcases config_cases p i n f v a fl with ⟨p', hp⟩ | ⟨m, hp⟩
    · rw [hp, Res.bind_ok] at e
      obtain ⟨h1, h2, h3⟩ := runInit_names e
      obtain ⟨_, _, _, _, g1, g2, g3, _⟩ := config_ok hp
      refine ⟨?_, ?_, h3.trans g1⟩
      · intro hne
        rw [if_neg hne] at g2
        rw [h1 (by rw [g2]; exact hne), g2]
      · intro hne
        rw [if_neg hne] at g3
        rw [h2 (by rw [g3]; exact hne), g3]
    · rw [hp] at e; cases e
  | .register n a r f :: t, p, q, e => by
    unfold Plugin.runInit at e
    obtain ⟨h1, h2, h3⟩ := runInit_names e
    have hs := register_same p n a r f
    rw [hs.2.2.2.2.2.2.2.2.2] at h1
    rw [hs.2.2.2.2.2.2.2.2.1] at h2
    rw [hs.2.2.2.2.2.2.1] at h3
    exact ⟨h1, h2, h3⟩

theorem load_forced {f n i : String} {l : Lib} {p : Plugin} (h : Plugin.load f n i l = .ok p) :
    (i ≠ "" → p.id = i) ∧ (n ≠ "" → p.ns = n) ∧ p.filename = f := by
  unfold Plugin.load at h
  split at h
  · cases h
  · split at h
    · cases h
    · next acts _ =>
      cases hr : (Plugin.fresh f n i).runInit acts with
      | ok q =>
        rw [hr, Res.bind_ok] at h
        obtain ⟨h1, h2, h3⟩ := runInit_names hr
        simp only at h
        split at h
        · injection h with h; subst h; exact ⟨h1, h2, h3⟩
        · cases h
      | err _ => rw [hr] at h; cases h
      | fatal _ => rw [hr] at h; cases h
      | ub => rw [hr] at h; cases h

theorem load_cases (f n i : String) (l : Lib) :
    (∃ p, Plugin.load f n i l = .ok p) ∨ (∃ m, Plugin.load f n i l = .err m) ∨
      ∃ m, Plugin.load f n i l = .fatal m := by
  have hri : ∀ (acts : List Act) (p : Plugin),
      (∃ q, p.runInit acts = .ok q) ∨ ∃ m, p.runInit acts = .fatal m := by
    intro acts
    induction acts with
    | nil => intro p; exact .inl ⟨_, rfl⟩
    | cons x t ih =>
      intro p
      cases x with
      | config i n f v a fl =>
        unfold Plugin.runInit
        rcases config_cases p i n f v a fl with ⟨q, h⟩ | ⟨m, h⟩
        · rw [h]; exact ih q
        · rw [h]; exact .inr ⟨_, rfl⟩
      | register n a r f => exact ih _
  unfold Plugin.load
  split
  · exact .inr (.inl ⟨_, rfl⟩)
  · split
    · exact .inr (.inl ⟨_, rfl⟩)
    · next acts _ =>
      rcases hri acts (Plugin.fresh f n i) with ⟨q, h⟩ | ⟨m, h⟩
      · rw [h, Res.bind_ok]
        simp only
        split
        · exact .inl ⟨_, rfl⟩
        · exact .inr (.inl ⟨_, rfl⟩)
      · rw [h]; exact .inr (.inr ⟨_, rfl⟩)

/-! ## The table -/

/-- Invariant of the plugin table. -/
structure CInv (c : Core) : Prop where
  sorted : Sorted c.plugins
  key : ∀ k p, (k, p) ∈ c.plugins → k = p.id
  inv : ∀ k p, (k, p) ∈ c.plugins → LInv p
  ns : ∀ k p k' p', (k, p) ∈ c.plugins → (k', p') ∈ c.plugins → p.ns = p'.ns → k = k'

theorem findNamespace_some {n : String} {p : Plugin} :
    ∀ {l : List (String × Plugin)}, findNamespace n l = some p → ∃ k, (k, p) ∈ l ∧ p.ns = n
  | [], h => by cases h
  | (k', q) :: t, h => by
    unfold findNamespace at h
    split at h
    · next e => injection h with h; subst h; exact ⟨k', List.mem_cons_self .., e⟩
    · obtain ⟨k, h1, h2⟩ := findNamespace_some h
      exact ⟨k, List.mem_cons_of_mem _ h1, h2⟩

theorem findNamespace_none {n : String} :
    ∀ {l : List (String × Plugin)}, findNamespace n l = none → ∀ e ∈ l, e.2.ns ≠ n
  | [], _, e, he => by cases he
  | (k', q) :: t, h, e, he => by
    unfold findNamespace at h
    split at h
    · cases h
    · next hn =>
      rcases List.mem_cons.1 he with e1 | he
      · subst e1; exact hn
      · exact findNamespace_none h e he

/-- The outcomes of a load. -/
theorem loadPlugin_cases (c : Core) (f n i : String) (l : Lib) :
    (∃ p, Plugin.load f n i l = .ok p ∧ lookup p.id c.plugins = none ∧
      findNamespace p.ns c.plugins = none ∧
      c.loadPlugin f n i l = .ok { c with plugins := insertNew p.id p c.plugins }) ∨
    (∃ m, c.loadPlugin f n i l = .err m ∧
      ((∃ e, Plugin.load f n i l = .err e) ∨ ∃ p, Plugin.load f n i l = .ok p ∧
        (lookup p.id c.plugins ≠ none ∨ findNamespace p.ns c.plugins ≠ none))) ∨
    (∃ m, c.loadPlugin f n i l = .fatal m ∧ Plugin.load f n i l = .fatal m) := by
  unfold Core.loadPlugin
  rcases load_cases f n i l with ⟨p, h⟩ | ⟨m, h⟩ | ⟨m, h⟩
  · rw [h, Res.bind_ok]
    unfold Core.pluginByID Core.pluginByNamespace
    cases h1 : lookup p.id c.plugins with
    | some q => exact .inr (.inl ⟨_, rfl, .inr ⟨p, rfl, .inl (by rw [h1]; simp)⟩⟩)
    | none =>
      cases h2 : findNamespace p.ns c.plugins with
      | some q => exact .inr (.inl ⟨_, rfl, .inr ⟨p, rfl, .inr (by rw [h2]; simp)⟩⟩)
      | none => exact .inl ⟨p, rfl, h1, h2, rfl⟩
  · rw [h]; exact .inr (.inl ⟨_, rfl, .inl ⟨_, rfl⟩⟩)
  · rw [h]; exact .inr (.inr ⟨_, rfl, rfl⟩)

theorem insert_inv {c : Core} (h : CInv c) {p : Plugin} (hp : LInv p)
    (h1 : lookup p.id c.plugins = none) (h2 : findNamespace p.ns c.plugins = none) (lg : List String) :
    CInv ⟨insertNew p.id p c.plugins, lg⟩ := by
  refine ⟨sorted_insertNew h.sorted, ?_, ?_, ?_⟩
  · intro k q hq
    rcases (mem_insertNew h1).1 hq with e | hq
    · injection e with e1 e2; rw [e1, e2]
    · exact h.key k q hq
  · intro k q hq
    rcases (mem_insertNew h1).1 hq with e | hq
    · injection e with e1 e2; rw [e2]; exact hp
    · exact h.inv k q hq
  · intro k q k' q' hq hq' hn
    rcases (mem_insertNew h1).1 hq with e | hq <;> rcases (mem_insertNew h1).1 hq' with e' | hq'
    · injection e with e1 _; injection e' with e1' _; rw [e1, e1']
    · injection e with _ e2
      exact absurd (by rw [← hn, e2]) (findNamespace_none h2 _ hq')
    · injection e' with _ e2
      exact absurd (by rw [hn, e2]) (findNamespace_none h2 _ hq)
    · exact h.ns k q k' q' hq hq' hn

theorem LInv.register {p : Plugin} (h : LInv p) (n a r : String) (func : AMap → RMap) :
    LInv (p.register n a r func).1 := by
  have hs := register_same p n a r func
  exact ⟨register_inv h.toPInv n a r func, by rw [hs.2.2.2.1]; exact h.configured,
    by rw [hs.1]; exact h.major⟩

theorem step_load (c : Core) (f n i : String) (l : Lib) :
    c.step (.load f n i l) =
      match c.loadPlugin f n i l with
      | .ok c' => .ok c'
      | .err e => .ok { c with log := c.log ++ [e] }
      | .fatal e => .fatal e
      | .ub => .ub := rfl

theorem step_register {c : Core} {q : String} {p : Plugin} (h : lookup q c.plugins = some p)
    (n a r : String) (f : AMap → RMap) :
    c.step (.register q n a r f) = .ok ⟨update q (p.register n a r f).1 c.plugins,
      c.log ++ (p.register n a r f).2.2⟩ := by
  rw [show c.step (.register q n a r f) = (match lookup q c.plugins with
    | none => .ub
    | some p => .ok ⟨update q (p.register n a r f).1 c.plugins,
      c.log ++ (p.register n a r f).2.2⟩) from rfl, h]

theorem step_register_none {c : Core} {q : String} (h : lookup q c.plugins = none)
    (n a r : String) (f : AMap → RMap) : c.step (.register q n a r f) = .ub := by
  rw [show c.step (.register q n a r f) = (match lookup q c.plugins with
    | none => .ub
    | some p => .ok ⟨update q (p.register n a r f).1 c.plugins,
      c.log ++ (p.register n a r f).2.2⟩) from rfl, h]

/-- `configPlugin` on a loaded plugin never succeeds. -/
theorem step_config {c : Core} (h : CInv c) (q i n f : String) (v a : Int) (fl : Nat) :
    c.step (.config q i n f v a fl) = .ub ∨ ∃ m, c.step (.config q i n f v a fl) = .fatal m := by
  rw [show c.step (.config q i n f v a fl) = (match lookup q c.plugins with
    | none => .ub
    | some p =>
      match p.config i n f v a fl with
      | .ok p' => .ok { c with plugins := update q p' c.plugins }
      | .fatal e => .fatal e
      | .err e => .err e
      | .ub => .ub) from rfl]
  cases hq : lookup q c.plugins with
  | none => exact .inl rfl
  | some p =>
    have hc := (h.inv _ _ (lookup_mem hq)).configured
    have : ∃ m, p.config i n f v a fl = .fatal m := by
      unfold Plugin.config
      rw [if_pos hc]
      exact ⟨_, rfl⟩
    obtain ⟨m, hm⟩ := this
    simp only [hm]
    exact .inr ⟨m, rfl⟩

theorem step_inv {c c' : Core} (h : CInv c) (x : Call) (e : c.step x = .ok c') : CInv c' := by
  cases x with
  | load f n i l =>
    rw [step_load] at e
    rcases loadPlugin_cases c f n i l with ⟨p, h1, h2, h3, h4⟩ | ⟨m, h1, _⟩ | ⟨m, h1, _⟩
    · rw [h4] at e
      injection e with e
      subst e
      exact insert_inv h (load_inv h1).1 h2 h3 _
    · rw [h1] at e
      injection e with e
      subst e
      exact ⟨h.sorted, h.key, h.inv, h.ns⟩
    · rw [h1] at e; cases e
  | register q n a r f =>
    cases hq : lookup q c.plugins with
    | none => rw [step_register_none hq] at e; cases e
    | some p =>
      rw [step_register hq] at e
      injection e with e
      subst e
      have hm := lookup_mem hq
      have hs := register_same p n a r f
      have hmu : ∀ k z, (k, z) ∈ update q (p.register n a r f).1 c.plugins →
          ∃ z0, (k, z0) ∈ c.plugins ∧ SameConfig z0 z ∧ LInv z := by
        intro k z hz
        rcases (mem_update h.sorted).1 hz with ⟨e, _⟩ | ⟨hz, _⟩
        · injection e with e1 e2
          subst e1; subst e2
          exact ⟨p, hm, hs, LInv.register (h.inv _ _ hm) n a r f⟩
        · exact ⟨z, hz, .refl z, h.inv _ _ hz⟩
      refine ⟨sorted_update h.sorted, ?_, ?_, ?_⟩
      · intro k z hz
        obtain ⟨z0, h1, h2, _⟩ := hmu k z hz
        rw [h.key k z0 h1, h2.2.2.2.2.2.2.2.2.2]
      · intro k z hz
        obtain ⟨z0, _, _, h3⟩ := hmu k z hz
        exact h3
      · intro k z k' z' hz hz' hn
        obtain ⟨z0, h1, h2, _⟩ := hmu k z hz
        obtain ⟨z0', h1', h2', _⟩ := hmu k' z' hz'
        refine h.ns k z0 k' z0' h1 h1' ?_
        rw [← h2.2.2.2.2.2.2.2.2.1, ← h2'.2.2.2.2.2.2.2.2.1]
        exact hn
  | config q i n f v a fl =>
    rcases step_config h q i n f v a fl with hx | ⟨m, hx⟩ <;> rw [hx] at e <;> cases e

theorem run_inv : ∀ {xs : List Call} {c c' : Core}, CInv c → c.run xs = .ok c' → CInv c'
  | [], c, c', h, e => by injection e with e; subst e; exact h
  | x :: t, c, c', h, e => by
    unfold Core.run at e
    cases hx : c.step x with
    | ok d => rw [hx, Res.bind_ok] at e; exact run_inv (step_inv h x hx) e
    | err _ => rw [hx] at e; cases e
    | fatal _ => rw [hx] at e; cases e
    | ub => rw [hx] at e; cases e

/-- How a plugin object may change while it is loaded. -/
def Grown (p p' : Plugin) : Prop :=
  SameConfig p p' ∧ (∀ e ∈ p.funcs, e ∈ p'.funcs) ∧ (p.readOnly = true → p' = p)

theorem Grown.refl (p : Plugin) : Grown p p := ⟨.refl p, fun _ h => h, fun _ => rfl⟩

theorem Grown.trans {p q r : Plugin} (h1 : Grown p q) (h2 : Grown q r) : Grown p r :=
  ⟨h1.1.trans h2.1, fun e he => h2.2.1 e (h1.2.1 e he), fun h => by
    have e1 := h1.2.2 h
    subst e1
    exact h2.2.2 h⟩

theorem register_grown (p : Plugin) (n a r : String) (f : AMap → RMap) :
    Grown p (p.register n a r f).1 := by
  refine ⟨register_same p n a r f, register_keeps p n a r f, ?_⟩
  intro h
  rcases register_cases p n a r f with ⟨m, e, _⟩ | ⟨g, h1, _⟩
  · rw [e]
  · rw [h] at h1; cases h1

theorem step_grown {c c' : Core} (h : CInv c) {x : Call} (e : c.step x = .ok c') :
    ∀ k p, (k, p) ∈ c.plugins → ∃ p', (k, p') ∈ c'.plugins ∧ Grown p p' := by
  intro k p hp
  cases x with
  | load f n i l =>
    rw [step_load] at e
    rcases loadPlugin_cases c f n i l with ⟨q, h1, h2, h3, h4⟩ | ⟨m, h1, _⟩ | ⟨m, h1, _⟩
    · rw [h4] at e
      injection e with e
      subst e
      exact ⟨p, (mem_insertNew h2).2 (.inr hp), .refl p⟩
    · rw [h1] at e
      injection e with e
      subst e
      exact ⟨p, hp, .refl p⟩
    · rw [h1] at e; cases e
  | register q n a r f =>
    cases hq : lookup q c.plugins with
    | none => rw [step_register_none hq] at e; cases e
    | some z =>
      rw [step_register hq] at e
      injection e with e
      subst e
      by_cases hk : k = q
      · subst hk
        have : z = p := h.sorted.key_eq (lookup_mem hq) hp
        subst this
        exact ⟨_, (mem_update h.sorted).2 (.inl ⟨rfl, _, hp⟩), register_grown ..⟩
      · exact ⟨p, (mem_update h.sorted).2 (.inr ⟨hp, hk⟩), .refl p⟩
  | config q i n f v a fl =>
    rcases step_config h q i n f v a fl with hx | ⟨m, hx⟩ <;> rw [hx] at e <;> cases e

theorem run_grown : ∀ {xs : List Call} {c c' : Core}, CInv c → c.run xs = .ok c' →
    ∀ k p, (k, p) ∈ c.plugins → ∃ p', (k, p') ∈ c'.plugins ∧ Grown p p'
  | [], c, c', h, e, k, p, hp => by injection e with e; subst e; exact ⟨p, hp, .refl p⟩
  | x :: t, c, c', h, e, k, p, hp => by
    unfold Core.run at e
    cases hx : c.step x with
    | ok d =>
      rw [hx, Res.bind_ok] at e
      obtain ⟨p1, h1, h2⟩ := step_grown h hx k p hp
      obtain ⟨p2, h3, h4⟩ := run_grown (step_inv h x hx) e k p1 h1
      exact ⟨p2, h3, h2.trans h4⟩
    | err _ => rw [hx] at e; cases e
    | fatal _ => rw [hx] at e; cases e
    | ub => rw [hx] at e; cases e

theorem registerAll_inv :
    ∀ {l : List (String × String × String × (AMap → RMap))} {p : Plugin}, LInv p →
      LInv (registerAll p l) ∧ SameConfig p (registerAll p l)
  | [], p, h => ⟨h, .refl p⟩
  | (n, a, r, f) :: t, p, h => by
    unfold registerAll
    obtain ⟨h1, h2⟩ := registerAll_inv (l := t) (LInv.register h n a r f)
    exact ⟨h1, (register_same p n a r f).trans h2⟩

theorem builtin_ok (file id ns full : String) (flags : Nat) (hf : flags = 0 ∨ flags = 1)
    (fns : List (String × String × String × (AMap → RMap))) :
    ∃ p, builtin file id ns full flags fns = .ok p ∧ LInv p ∧ p.id = id ∧ p.ns = ns ∧
      p.readOnly = false ∧ p.readOnlySet = decide (flags = 0) := by
  unfold builtin
  have hc : (Plugin.fresh file "" "").config id ns full 0 (0x40000 + apiMinor4) flags =
      .ok ⟨4, 2, 0, true, false, decide (flags = 0), file, full, ns, id, []⟩ := by
    unfold Plugin.config
    rw [if_neg (by simp [Plugin.fresh]), if_neg (by omega)]
    rfl
  rw [hc, Res.bind_ok]
  refine ⟨_, rfl, ?_⟩
  have h0 : LInv ⟨4, 2, 0, true, false, decide (flags = 0), file, full, ns, id, []⟩ :=
    ⟨⟨List.Pairwise.nil, (fun _ _ h => nomatch h), (fun h => nomatch h)⟩, rfl, .inr rfl⟩
  obtain ⟨h1, h2⟩ := registerAll_inv (l := fns) h0
  exact ⟨h1, h2.2.2.2.2.2.2.2.2.2, h2.2.2.2.2.2.2.2.2.1, h2.2.2.2.2.1, h2.2.2.2.2.2.1⟩

/-- The table of a new core. -/
theorem newCore_ok (lib : String) (std resize text : List (String × String × String × (AMap → RMap))) :
    ∃ c s r t, newCore lib std resize text = .ok c ∧ CInv c ∧
      c.plugins = [("com.vapoursynth.resize", r), ("com.vapoursynth.std", s),
        ("com.vapoursynth.text", t)] ∧ s.ns = "std" ∧ r.ns = "resize" ∧ t.ns = "text" ∧
      s.readOnly = true ∧ r.readOnly = false ∧ t.readOnly = false ∧ r.readOnlySet = true ∧
      t.readOnlySet = true := by
  obtain ⟨s, hs, is, ids, nss, ros, rss⟩ := builtin_ok lib "com.vapoursynth.std" "std"
    "VapourSynth Core Functions" 1 (.inr rfl) std
  obtain ⟨r, hr, ir, idr, nsr, ror, rsr⟩ := builtin_ok "" "com.vapoursynth.resize" "resize"
    "VapourSynth Resize" 0 (.inl rfl) resize
  obtain ⟨t, ht, it, idt, nst, rot, rst⟩ := builtin_ok "" "com.vapoursynth.text" "text"
    "VapourSynth Text" 0 (.inl rfl) text
  have hpl : insertNew t.id t (insertNew r.id r (insertNew s.id { s with readOnly := true } [])) =
      [("com.vapoursynth.resize", r), ("com.vapoursynth.std", { s with readOnly := true }),
        ("com.vapoursynth.text", t)] := by
    rw [ids, idr, idt, insertNew_nil, insertNew_lt (by decide +kernel),
      insertNew_gt (by decide +kernel) (by decide +kernel),
      insertNew_gt (by decide +kernel) (by decide +kernel), insertNew_nil]
  refine ⟨⟨_, []⟩, { s with readOnly := true }, r, t, ?_, ?_, hpl, nss, nsr, nst, rfl, ror, rot,
    by rw [rsr]; rfl, by rw [rst]; rfl⟩
  · unfold newCore
    rw [hs, hr, ht]
    rfl
  · have hm : ∀ k p, (k, p) ∈ insertNew t.id t (insertNew r.id r
        (insertNew s.id { s with readOnly := true } [])) →
        (k = "com.vapoursynth.resize" ∧ p = r) ∨
        (k = "com.vapoursynth.std" ∧ p = { s with readOnly := true }) ∨
        (k = "com.vapoursynth.text" ∧ p = t) := by
      intro k p h
      rw [hpl] at h
      simpa using h
    refine ⟨?_, ?_, ?_, ?_⟩
    · rw [hpl]
      unfold Sorted
      refine List.pairwise_cons.2 ⟨?_, List.pairwise_cons.2 ⟨?_, List.pairwise_singleton ..⟩⟩
      · intro e he
        simp only [List.mem_cons, List.not_mem_nil, or_false] at he
        rcases he with rfl | rfl
        · exact (by decide +kernel : "com.vapoursynth.resize" < "com.vapoursynth.std")
        · exact (by decide +kernel : "com.vapoursynth.resize" < "com.vapoursynth.text")
      · intro e he
        simp only [List.mem_cons, List.not_mem_nil, or_false] at he
        rcases he with rfl
        exact (by decide +kernel : "com.vapoursynth.std" < "com.vapoursynth.text")
    · intro k p h
      rcases hm k p h with ⟨rfl, rfl⟩ | ⟨rfl, rfl⟩ | ⟨rfl, rfl⟩
      · exact idr.symm
      · exact ids.symm
      · exact idt.symm
    · intro k p h
      rcases hm k p h with ⟨rfl, rfl⟩ | ⟨rfl, rfl⟩ | ⟨rfl, rfl⟩
      · exact ir
      · exact ⟨⟨is.sorted, is.funcs, is.fresh⟩, is.configured, is.major⟩
      · exact it
    · intro k p k' p' h h' hn
      rcases hm k p h with ⟨rfl, rfl⟩ | ⟨rfl, rfl⟩ | ⟨rfl, rfl⟩ <;>
        rcases hm k' p' h' with ⟨rfl, rfl⟩ | ⟨rfl, rfl⟩ | ⟨rfl, rfl⟩ <;>
        first | rfl | (simp only [nss, nsr, nst] at hn; revert hn; decide)

theorem reachable_inv {c : Core} (h : Reachable c) : CInv c := by
  obtain ⟨lib, std, rs, tx, c0, calls, h0, hr⟩ := h
  obtain ⟨c1, _, _, _, h1, hi, _⟩ := newCore_ok lib std rs tx
  rw [h1] at h0; injection h0 with h0; subst h0
  exact run_inv hi hr

theorem run_append : ∀ (xs ys : List Call) (c : Core),
    c.run (xs ++ ys) = (c.run xs >>= fun d => d.run ys)
  | [], ys, c => by rw [Core.run, List.nil_append, Res.bind_ok]
  | x :: t, ys, c => by
    rw [List.cons_append, Core.run, Core.run]
    cases c.step x with
    | ok d => rw [Res.bind_ok, Res.bind_ok]; exact run_append t ys d
    | err _ => rfl
    | fatal _ => rfl
    | ub => rfl

theorem reachable_run {c c' : Core} (h : Reachable c) {xs : List Call} (e : c.run xs = .ok c') :
    Reachable c' := by
  obtain ⟨lib, std, rs, tx, c0, calls, h0, hr⟩ := h
  refine ⟨lib, std, rs, tx, c0, calls ++ xs, h0, ?_⟩
  rw [run_append, hr, Res.bind_ok]
  exact e

/-- What a program sees of the successor of a plugin. -/
theorem nextPlugin_none {c : Core} (h : CInv c) {cur : Option String}
    (hc : ∀ k, cur = some k → ∃ p, Loaded c p ∧ p.id = k) (e : c.nextPlugin cur = none) :
    ∀ p, Loaded c p → ¬ Above cur p.id := by
  rintro p ⟨k, hk⟩
  have := h.key k p hk
  subst this
  refine next_none h.sorted (cur := cur) ?_ ?_ _ hk
  · intro k e
    obtain ⟨q, ⟨k', hq⟩, rfl⟩ := hc k e
    rw [h.key k' q hq] at hq
    exact ⟨q, hq⟩
  · cases cur <;> exact e

theorem nextPlugin_some {c : Core} (h : CInv c) {cur : Option String}
    (hc : ∀ k, cur = some k → ∃ p, Loaded c p ∧ p.id = k) {p : Plugin}
    (e : c.nextPlugin cur = some p) :
    Loaded c p ∧ Above cur p.id ∧ ∀ q, Loaded c q → Above cur q.id → q.id = p.id ∨ p.id < q.id := by
  have := next_some h.sorted (cur := cur) (v := p) ?_ ?_
  · obtain ⟨k, h1, h2, h3⟩ := this
    have hk := h.key k p h1
    subst hk
    refine ⟨⟨_, h1⟩, h2, ?_⟩
    rintro q ⟨k', hq⟩ ha
    have hk := h.key k' q hq
    subst hk
    exact h3 _ hq ha
  · intro k e
    obtain ⟨q, ⟨k', hq⟩, rfl⟩ := hc k e
    rw [h.key k' q hq] at hq
    exact ⟨q, hq⟩
  · cases cur <;> exact e

theorem nextFunction_none {p : Plugin} (h : PInv p) {cur : Option String}
    (hc : ∀ k, cur = some k → ∃ f, Has p f ∧ f.name = k) (e : p.nextFunction cur = none) :
    ∀ f, Has p f → ¬ Above cur f.name := by
  rintro f ⟨k, hk⟩
  have := (h.funcs k f hk).1
  subst this
  refine next_none h.sorted (cur := cur) ?_ ?_ _ hk
  · intro k e
    obtain ⟨q, ⟨k', hq⟩, rfl⟩ := hc k e
    rw [← (h.funcs k' q hq).1] at hq
    exact ⟨q, hq⟩
  · cases cur <;> exact e

theorem nextFunction_some {p : Plugin} (h : PInv p) {cur : Option String}
    (hc : ∀ k, cur = some k → ∃ f, Has p f ∧ f.name = k) {f : PFunc}
    (e : p.nextFunction cur = some f) :
    Has p f ∧ Above cur f.name ∧
      ∀ g, Has p g → Above cur g.name → g.name = f.name ∨ f.name < g.name := by
  have := next_some h.sorted (cur := cur) (v := f) ?_ ?_
  · obtain ⟨k, h1, h2, h3⟩ := this
    have hk := (h.funcs k f h1).1
    subst hk
    refine ⟨⟨_, h1⟩, h2, ?_⟩
    rintro q ⟨k', hq⟩ ha
    have hk := (h.funcs k' q hq).1
    subst hk
    exact h3 _ hq ha
  · intro k e
    obtain ⟨q, ⟨k', hq⟩, rfl⟩ := hc k e
    rw [← (h.funcs k' q hq).1] at hq
    exact ⟨q, hq⟩
  · cases cur <;> exact e

theorem Above.trans {cur : Option String} {a b : String} (h : Above cur a) (h' : a < b) :
    Above cur b := by
  cases cur with
  | none => trivial
  | some c => exact String.lt_trans h h'

end VS.Plugin
