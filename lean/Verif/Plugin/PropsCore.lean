import Verif.Plugin.LemmasCore

/-!
# The table of plugins

C25: identifiers and namespaces are unique, lookups are exact, rejected loads leave no trace.
C45: enumeration is complete.
C46: plugins that are not declared modifiable do not change.
-/

namespace VS.Plugin
open VS VS.Plugin.Spec

/-! ## C25 -/

/-- A library that registers one function. -/
def exampleLib (id ns : String) : Lib :=
  ⟨true, some [.config id ns "Some plugin" 1 0x40000 0,
    .register "Blur" "clip:vnode;" "clip:vnode;" (fun _ => ⟨none, []⟩)], none⟩

/-- Two loaded plugins never share an identifier or a namespace. -/
theorem C25_unique (c : Core) (hc : Reachable c) (p q : Plugin) (hp : Loaded c p)
    (hq : Loaded c q) (h : p.id = q.id ∨ p.ns = q.ns) : p = q := by
  have hi := reachable_inv hc
  obtain ⟨k, hp⟩ := hp
  obtain ⟨k', hq⟩ := hq
  have e : k = k' := by
    rcases h with h | h
    · rw [hi.key _ _ hp, hi.key _ _ hq, h]
    · exact hi.ns _ _ _ _ hp hq h
  subst e
  exact hi.sorted.key_eq hp hq

/-- Lookups find exactly the loaded plugin with that identifier or namespace. -/
theorem C25_lookup (c : Core) (hc : Reachable c) (s : String) (p : Plugin) :
    (c.pluginByID s = some p ↔ Loaded c p ∧ p.id = s) ∧
    (c.pluginByNamespace s = some p ↔ Loaded c p ∧ p.ns = s) := by
  have hi := reachable_inv hc
  constructor
  · unfold Core.pluginByID
    rw [lookup_iff hi.sorted]
    constructor
    · intro h; exact ⟨⟨s, h⟩, (hi.key _ _ h).symm⟩
    · rintro ⟨⟨k, h⟩, rfl⟩
      rwa [hi.key _ _ h] at h
  · unfold Core.pluginByNamespace
    constructor
    · intro h
      obtain ⟨k, h1, h2⟩ := findNamespace_some h
      exact ⟨⟨k, h1⟩, h2⟩
    · rintro ⟨⟨k, h⟩, h'⟩
      cases hx : findNamespace s c.plugins with
      | none => exact absurd h' (findNamespace_none hx _ h)
      | some q =>
        obtain ⟨k', h1, h2⟩ := findNamespace_some hx
        have := C25_unique c hc p q ⟨k, h⟩ ⟨k', h1⟩ (.inr (h'.trans h2.symm))
        rw [this]

/-- Loading a library whose entry point went well succeeds exactly if neither its identifier nor
its namespace is taken; then precisely this plugin is added.  A rejected load leaves the
loaded plugins as they were and reports the reason. -/
theorem C25_load (c : Core) (hc : Reachable c) (f n i : String) (l : Lib) (p : Plugin)
    (hl : Plugin.load f n i l = .ok p) :
    ((∀ q, Loaded c q → q.id ≠ p.id ∧ q.ns ≠ p.ns) →
      ∃ c', c.step (.load f n i l) = .ok c' ∧ c'.log = c.log ∧
        ∀ q, Loaded c' q ↔ q = p ∨ Loaded c q) ∧
    ((∃ q, Loaded c q ∧ (q.id = p.id ∨ q.ns = p.ns)) →
      ∃ msg, c.step (.load f n i l) = .ok { c with log := c.log ++ [msg] }) := by
  have hi := reachable_inv hc
  rw [step_load]
  rcases loadPlugin_cases c f n i l with ⟨q, h1, h2, h3, h4⟩ | ⟨m, h1, h2⟩ | ⟨m, h1, h2⟩
  · rw [hl] at h1; injection h1 with h1; subst h1
    rw [h4]
    constructor
    · intro _
      refine ⟨_, rfl, rfl, ?_⟩
      intro q
      constructor
      · rintro ⟨k, hq⟩
        rcases (mem_insertNew h2).1 hq with e | hq
        · injection e with e1 e2; exact .inl e2
        · exact .inr ⟨k, hq⟩
      · rintro (rfl | ⟨k, hq⟩)
        · exact ⟨_, (mem_insertNew h2).2 (.inl rfl)⟩
        · exact ⟨k, (mem_insertNew h2).2 (.inr hq)⟩
    · rintro ⟨q, ⟨k, hq⟩, e | e⟩
      · exact absurd ((hi.key _ _ hq).trans e) (lookup_none h2 _ hq)
      · exact absurd e (findNamespace_none h3 _ hq)
  · rw [h1]
    constructor
    · intro hno
      exfalso
      rcases h2 with ⟨e, h2⟩ | ⟨q, h2, h3⟩
      · rw [hl] at h2; cases h2
      · rw [hl] at h2; injection h2 with h2; subst h2
        rcases h3 with h3 | h3
        · cases hx : lookup p.id c.plugins with
          | none => exact h3 hx
          | some q =>
            have := lookup_mem hx
            exact (hno q ⟨_, this⟩).1 (hi.key _ _ this).symm
        · cases hx : findNamespace p.ns c.plugins with
          | none => exact h3 hx
          | some q =>
            obtain ⟨k, h4, h5⟩ := findNamespace_some hx
            exact (hno q ⟨k, h4⟩).2 h5
    · intro _
      exact ⟨m, rfl⟩
  · rw [hl] at h2; cases h2

/-- A library that cannot be opened, has no entry point or asks for an unknown interface version
leaves no trace either. -/
theorem C25_load_error (c : Core) (f n i : String) (l : Lib) (e : String)
    (hl : Plugin.load f n i l = .err e) :
    ∃ msg, c.step (.load f n i l) = .ok { c with log := c.log ++ [msg] } := by
  rw [step_load]
  rcases loadPlugin_cases c f n i l with ⟨q, h1, _⟩ | ⟨m, h1, _⟩ | ⟨m, h1, h2⟩
  · rw [hl] at h1; cases h1
  · exact ⟨m, by rw [h1]⟩
  · rw [hl] at h2; cases h2

/-- An identifier or a namespace given by the one who loads replaces that of the library. -/
theorem C25_forced (f n i : String) (l : Lib) (p : Plugin) (h : Plugin.load f n i l = .ok p) :
    (i ≠ "" → p.id = i) ∧ (n ≠ "" → p.ns = n) ∧ p.filename = f :=
  load_forced h

example : ∃ p, Plugin.load "a.so" "w" "x.w" (exampleLib "x.y" "y") = .ok p ∧ p.id = "x.w" :=
  ⟨_, rfl, by decide +kernel⟩

/-- The functions of a loaded plugin have different names, identifiers, and are found by them. -/
theorem C25_functions (c : Core) (hc : Reachable c) (p : Plugin) (hp : Loaded c p) :
    (∀ f g, Has p f → Has p g → f.name = g.name → f = g) ∧
    (∀ f, Has p f → Ident f.name.toList) ∧
    ∀ n f, p.functionByName n = some f ↔ Has p f ∧ f.name = n := by
  have hi := reachable_inv hc
  obtain ⟨k, hk⟩ := hp
  have hl := hi.inv k p hk
  refine ⟨?_, ?_, ?_⟩
  · rintro f g ⟨a, ha⟩ ⟨b, hb⟩ e
    rw [(hl.funcs a f ha).1, (hl.funcs b g hb).1] at e
    subst e
    exact hl.sorted.key_eq ha hb
  · rintro f ⟨a, ha⟩
    have := hl.funcs a f ha
    rw [this.1]
    exact this.2.1
  · intro n f
    unfold Plugin.functionByName
    rw [lookup_iff hl.sorted]
    constructor
    · intro h; exact ⟨⟨n, h⟩, (hl.funcs _ _ h).1⟩
    · rintro ⟨⟨k, h⟩, rfl⟩
      rwa [← (hl.funcs _ _ h).1] at h

/-- Whatever a program does later, a loaded plugin stays loaded under its identifier and namespace
and keeps all its functions. -/
theorem C25_stable (c : Core) (hc : Reachable c) (calls : List Call) (c' : Core)
    (h : c.run calls = .ok c') (p : Plugin) (hp : Loaded c p) :
    ∃ p', Loaded c' p' ∧ p'.id = p.id ∧ p'.ns = p.ns ∧ p'.filename = p.filename ∧
      ∀ f, Has p f → Has p' f := by
  obtain ⟨k, hk⟩ := hp
  obtain ⟨p', h1, h2, h3, _⟩ := run_grown (reachable_inv hc) h k p hk
  refine ⟨p', ⟨k, h1⟩, h2.2.2.2.2.2.2.2.2.2, h2.2.2.2.2.2.2.2.2.1, h2.2.2.2.2.2.2.1, ?_⟩
  rintro f ⟨a, ha⟩
  exact ⟨a, h3 _ ha⟩

/-- A core in which a plugin was loaded and two further loads were rejected: one for its
identifier, one for its namespace. -/
example : (do
    let c ← newCore "lib" [] [] []
    let c ← c.run [.load "a.so" "" "" (exampleLib "x.y" "y"), .load "b.so" "" "" (exampleLib "x.y" "z"),
      .load "c.so" "" "" (exampleLib "x.z" "y"), .load "d.so" "w" "x.w" (exampleLib "x.y" "y")]
    .ok (c.plugins.map (fun e => (e.1, e.2.ns, e.2.funcs.map (·.1))), c.log) : Res _) =
    .ok ([("com.vapoursynth.resize", "resize", []), ("com.vapoursynth.std", "std", []),
      ("com.vapoursynth.text", "text", []), ("x.w", "w", ["Blur"]), ("x.y", "y", ["Blur"])],
      ["Plugin b.so already loaded (x.y) from a.so",
        "Plugin load of c.so failed, namespace y already populated by a.so"]) := by
  decide +kernel

/-! ## C45 -/

theorem walk_complete {c : Core} {cur : Option String} {ids : List String} (h : Walk c cur ids) :
    Reachable c → (∀ k, cur = some k → ∃ p, Loaded c p ∧ p.id = k) →
    (∀ p, Loaded c p → Above cur p.id → p.id ∈ ids) ∧ ids.Pairwise (· < ·) ∧
      ∀ k ∈ ids, Above cur k := by
  induction h with
  | stop e =>
    intro hc hcur
    refine ⟨?_, List.Pairwise.nil, (fun _ h => nomatch h)⟩
    intro p hp ha
    exact absurd ha (nextPlugin_none (reachable_inv hc) hcur e p hp)
  | @step c cur p calls c' ids e hr _ ih =>
    intro hc hcur
    obtain ⟨h1, h2, h3⟩ := nextPlugin_some (reachable_inv hc) hcur e
    have hkeep : ∀ q, Loaded c q → ∃ q', Loaded c' q' ∧ q'.id = q.id := fun q hq =>
      let ⟨q', a, b, _⟩ := C25_stable c hc calls c' hr q hq
      ⟨q', a, b⟩
    obtain ⟨g1, g2, g3⟩ := ih (reachable_run hc hr) (by
      intro k ek; injection ek with ek; subst ek
      exact hkeep p h1)
    refine ⟨?_, List.pairwise_cons.2 ⟨g3, g2⟩, ?_⟩
    · intro q hq ha
      rcases h3 q hq ha with e | hlt
      · rw [e]; exact List.mem_cons_self ..
      · obtain ⟨q', hq', eq⟩ := hkeep q hq
        refine List.mem_cons_of_mem _ ?_
        rw [← eq]
        refine g1 q' hq' ?_
        rw [eq]; exact hlt
    · intro k hk
      rcases List.mem_cons.1 hk with rfl | hk
      · exact h2
      · exact h2.trans (g3 k hk)

/-- Asking for the next plugin until there is none visits every plugin that was loaded at the
start, none twice, even if other plugins are loaded in between. -/
theorem C45_plugins (c : Core) (hc : Reachable c) (ids : List String) (h : Walk c none ids) :
    ids.Nodup ∧ ∀ p, Loaded c p → p.id ∈ ids := by
  obtain ⟨h1, h2, _⟩ := walk_complete h hc (fun _ e => nomatch e)
  refine ⟨h2.imp ?_, fun p hp => h1 p hp trivial⟩
  intro a b hab e
  subst e
  exact String.lt_irrefl _ hab

theorem walkFunctions_complete {q : String} {c : Core} {cur : Option String} {ids : List String}
    (h : WalkFunctions q c cur ids) :
    Reachable c → (∀ k, cur = some k → ∃ p f, Loaded c p ∧ p.id = q ∧ Has p f ∧ f.name = k) →
    (∀ p f, Loaded c p → p.id = q → Has p f → Above cur f.name → f.name ∈ ids) ∧
      ids.Pairwise (· < ·) ∧ ∀ k ∈ ids, Above cur k := by
  induction h with
  | @stop c cur p hp e =>
    intro hc hcur
    obtain ⟨hp1, hp2⟩ := (C25_lookup c hc q p).1.1 hp
    have hpi : PInv p := by
      obtain ⟨k, hk⟩ := hp1
      exact ((reachable_inv hc).inv k p hk).toPInv
    refine ⟨?_, List.Pairwise.nil, (fun _ h => nomatch h)⟩
    intro p' f hp' e' hf ha
    have := C25_unique c hc p' p hp' hp1 (.inl (e'.trans hp2.symm))
    subst this
    refine absurd ha (nextFunction_none hpi ?_ e f hf)
    intro k ek
    obtain ⟨p2, g, a1, a2, a3, a4⟩ := hcur k ek
    have := C25_unique c hc p2 p' a1 hp1 (.inl (a2.trans hp2.symm))
    subst this
    exact ⟨g, a3, a4⟩
  | @step c cur p f calls c' ids hp e hr _ ih =>
    intro hc hcur
    obtain ⟨hp1, hp2⟩ := (C25_lookup c hc q p).1.1 hp
    have hpi : PInv p := by
      obtain ⟨k, hk⟩ := hp1
      exact ((reachable_inv hc).inv k p hk).toPInv
    obtain ⟨h1, h2, h3⟩ := nextFunction_some hpi (by
      intro k ek
      obtain ⟨p2, g, a1, a2, a3, a4⟩ := hcur k ek
      have := C25_unique c hc p2 p a1 hp1 (.inl (a2.trans hp2.symm))
      subst this
      exact ⟨g, a3, a4⟩) e
    obtain ⟨p', b1, b2, _, _, b3⟩ := C25_stable c hc calls c' hr p hp1
    obtain ⟨g1, g2, g3⟩ := ih (reachable_run hc hr) (by
      intro k ek; injection ek with ek; subst ek
      exact ⟨p', f, b1, b2.trans hp2, b3 f h1, rfl⟩)
    refine ⟨?_, List.pairwise_cons.2 ⟨g3, g2⟩, ?_⟩
    · intro p2 g a1 a2 hg ha
      have := C25_unique c hc p2 p a1 hp1 (.inl (a2.trans hp2.symm))
      subst this
      rcases h3 g hg ha with e | hlt
      · rw [e]; exact List.mem_cons_self ..
      · exact List.mem_cons_of_mem _ (g1 p' g b1 (b2.trans hp2) (b3 g hg) hlt)
    · intro k hk
      rcases List.mem_cons.1 hk with rfl | hk
      · exact h2
      · exact h2.trans (g3 k hk)

/-- The same for the functions of a plugin, even if it registers more in between. -/
theorem C45_functions (c : Core) (hc : Reachable c) (p : Plugin) (hp : Loaded c p)
    (names : List String) (h : WalkFunctions p.id c none names) :
    names.Nodup ∧ ∀ f, Has p f → f.name ∈ names := by
  obtain ⟨h1, h2, _⟩ := walkFunctions_complete h hc (fun _ e => nomatch e)
  refine ⟨h2.imp ?_, fun f hf => h1 p f hp rfl hf trivial⟩
  intro a b hab e
  subst e
  exact String.lt_irrefl _ hab

/-- Such walks exist and end: with nothing in between, the walk over the plugins takes one step per
plugin. -/
theorem walk_exists (c : Core) (hc : Reachable c) : ∃ ids, Walk c none ids := by
  have hi := reachable_inv hc
  have key : ∀ (n : Nat) (cur : Option String),
      (∀ k, cur = some k → ∃ p, Loaded c p ∧ p.id = k) →
      ∀ l : List String, (∀ p, Loaded c p → Above cur p.id → p.id ∈ l) → l.length ≤ n →
      ∃ ids, Walk c cur ids := by
    intro n
    induction n with
    | zero =>
      intro cur hcur l hl hn
      cases e : c.nextPlugin cur with
      | none => exact ⟨[], .stop e⟩
      | some p =>
        obtain ⟨h1, h2, _⟩ := nextPlugin_some hi hcur e
        have := hl p h1 h2
        rw [List.eq_nil_of_length_eq_zero (l := l) (by omega)] at this
        cases this
    | succ n ih =>
      intro cur hcur l hl hn
      cases e : c.nextPlugin cur with
      | none => exact ⟨[], .stop e⟩
      | some p =>
        obtain ⟨h1, h2, h3⟩ := nextPlugin_some hi hcur e
        have hm := hl p h1 h2
        obtain ⟨ids, hw⟩ := ih (some p.id) (by
            intro k ek; injection ek with ek; subst ek; exact ⟨p, h1, rfl⟩)
          (l.erase p.id) (by
            intro q hq ha
            have ha' : p.id < q.id := ha
            have hne : q.id ≠ p.id := by
              intro e; rw [e] at ha'; exact String.lt_irrefl _ ha'
            exact (List.mem_erase_of_ne hne).2 (hl q hq (h2.trans ha')))
          (by rw [List.length_erase_of_mem hm]; omega)
        exact ⟨_, .step (calls := []) e rfl hw⟩
  refine key _ none (fun _ e => nomatch e) (c.plugins.map (fun e => e.2.id)) ?_ (Nat.le_refl _)
  rintro p ⟨k, hk⟩ _
  exact List.mem_map.2 ⟨_, hk, rfl⟩

example : ∃ c ids, Reachable c ∧ Walk c none ids ∧ "com.vapoursynth.std" ∈ ids := by
  obtain ⟨c, s, r, t, h, _, hp, _⟩ := newCore_ok "" [] [] []
  have hc : Reachable c := ⟨"", [], [], [], c, [], h, rfl⟩
  obtain ⟨ids, hw⟩ := walk_exists c hc
  have hl : Loaded c s := ⟨"com.vapoursynth.std", by rw [hp]; simp⟩
  have hid : s.id = "com.vapoursynth.std" :=
    ((reachable_inv hc).key "com.vapoursynth.std" s (by rw [hp]; simp)).symm
  exact ⟨c, ids, hc, hw, hid ▸ (C45_plugins c hc ids hw).2 s hl⟩

/-! ## C46 -/

/-- The full property: a loaded plugin that was not declared modifiable never changes. -/
def NeverChanges (c : Core) (p : Plugin) : Prop :=
  ∀ calls c', c.run calls = .ok c' → Loaded c' p

/-- A plugin file that does not declare itself modifiable is the same forever after its load. -/
theorem C46_loaded_partial (c c' : Core) (hc : Reachable c) (f n i : String) (l : Lib) (p : Plugin)
    (h : Plugin.load f n i l = .ok p) (hs : p.readOnlySet = true)
    (hl : c.step (.load f n i l) = .ok c') (hp : Loaded c' p) : NeverChanges c' p := by
  intro calls d hd
  obtain ⟨k, hk⟩ := hp
  obtain ⟨p', h1, h2, h3, h4⟩ := run_grown (step_inv (reachable_inv hc) _ hl) hd k p hk
  have := h4 ((load_inv h).2 hs)
  subst this
  exact ⟨k, h1⟩

/-- Registering with such a plugin is refused. -/
theorem C46_refused_partial (f n i : String) (l : Lib) (p : Plugin)
    (h : Plugin.load f n i l = .ok p) (hs : p.readOnlySet = true)
    (name a r : String) (func : AMap → RMap) :
    ∃ msg, p.register name a r func = (p, false, [msg]) := by
  have := (load_inv h).2 hs
  unfold Plugin.register
  rw [if_pos this]
  exact ⟨_, rfl⟩

example : ∃ p, Plugin.load "a.so" "" "" (exampleLib "x.y" "y") = .ok p ∧ p.readOnlySet = true :=
  ⟨_, rfl, by decide +kernel⟩

/-- The core functions of a new core never change. -/
theorem C46_std (lib : String) (std resize text : List (String × String × String × (AMap → RMap)))
    (c : Core) (h : newCore lib std resize text = .ok c) :
    ∃ s, c.pluginByID "com.vapoursynth.std" = some s ∧ NeverChanges c s := by
  obtain ⟨c1, s, r, t, h1, hi, hp, _, _, _, hro, _⟩ := newCore_ok lib std resize text
  rw [h1] at h; injection h with h; subst h
  have hm : ("com.vapoursynth.std", s) ∈ c1.plugins := by rw [hp]; simp
  refine ⟨s, (lookup_iff hi.sorted).2 hm, ?_⟩
  intro calls d hd
  obtain ⟨p', g1, _, _, g4⟩ := run_grown hi hd _ s hm
  rw [g4 hro] at g1
  exact ⟨_, g1⟩

/-- Where the claim fails: the built-in resize and text units are not declared modifiable, yet any
program can add functions to them. -/
theorem C46_builtin_refuted (id : String)
    (hid : id = "com.vapoursynth.resize" ∨ id = "com.vapoursynth.text") :
    ∃ c p, newCore "" [] [] [] = .ok c ∧ c.pluginByID id = some p ∧ p.readOnlySet = true ∧
      ¬ NeverChanges c p := by
  obtain ⟨c, s, r, t, h, hi, hp, _, _, _, _, hr, ht, hrs, hts⟩ := newCore_ok "" [] [] []
  have key : ∀ p, c.pluginByID id = some p → p.readOnly = false →
      ¬ NeverChanges c p := by
    intro p hp hro hn
    have hk := lookup_mem hp
    have hl := hi.inv _ _ hk
    -- some name is free
    have hreg := register_cases p "Evil" "x:int;" "any" (fun _ => ⟨none, []⟩)
    have hfree : lookup "Evil" p.funcs = none := by
      have hx : (newCore "" [] [] [] >>= fun c => Res.ok ((lookup id c.plugins).map
          (fun p => (lookup "Evil" p.funcs).isNone))) = .ok (some true) := by
        rcases hid with rfl | rfl <;> decide +kernel
      rw [h] at hx
      have hx' : (lookup id c.plugins).map (fun p => (lookup "Evil" p.funcs).isNone) = some true := by
        injection hx
      have hp' : lookup id c.plugins = some p := hp
      rw [hp'] at hx'
      simpa using hx'
    obtain ⟨f, hf⟩ : ∃ f, mkFunction p.apiMajor "Evil" "x:int;" "any" (fun _ => ⟨none, []⟩) = .ok f := by
      rcases hl.major with e | e <;> rw [e] <;> exact ⟨_, rfl⟩
    have hr : p.register "Evil" "x:int;" "any" (fun _ => ⟨none, []⟩) =
        ({ p with funcs := insertNew "Evil" f p.funcs }, true, []) := by
      rcases hreg with ⟨m, _, h1 | h1 | h1 | ⟨e, h1⟩⟩ | ⟨g, _, _, _, h4, h5⟩
      · rw [hro] at h1; cases h1
      · exact absurd ⟨'E', "vil".toList, rfl, by decide, by decide⟩ h1
      · rw [hfree] at h1; cases h1
      · rw [hf] at h1; cases h1
      · rw [hf] at h4; injection h4 with h4; subst h4; exact h5
    have hp' : lookup id c.plugins = some p := hp
    have hstep := step_register hp' "Evil" "x:int;" "any" (fun _ => ⟨none, []⟩)
    rw [hr] at hstep
    have hrun : c.run [.register id "Evil" "x:int;" "any" (fun _ => ⟨none, []⟩)] =
        .ok ⟨update id { p with funcs := insertNew "Evil" f p.funcs } c.plugins, c.log ++ []⟩ := by
      rw [Core.run, hstep, Res.bind_ok]; rfl
    obtain ⟨k, hk'⟩ := hn _ _ hrun
    rcases (mem_update hi.sorted).1 hk' with ⟨e, _⟩ | ⟨e, hne⟩
    · injection e with _ e
      have hfu : p.funcs = insertNew "Evil" f p.funcs := congrArg Plugin.funcs e
      have hmem : ("Evil", f) ∈ insertNew "Evil" f p.funcs := (mem_insertNew hfree).2 (.inl rfl)
      rw [← hfu] at hmem
      exact absurd rfl (lookup_none hfree _ hmem)
    · have := hi.key _ _ e
      have h2 := hi.key _ _ hk
      exact hne (this.trans h2.symm)
  rcases hid with rfl | rfl
  · have hm : c.pluginByID "com.vapoursynth.resize" = some r :=
      (lookup_iff hi.sorted).2 (by rw [hp]; simp)
    exact ⟨c, r, h, hm, hrs, key r hm hr⟩
  · have hm : c.pluginByID "com.vapoursynth.text" = some t :=
      (lookup_iff hi.sorted).2 (by rw [hp]; simp)
    exact ⟨c, t, h, hm, hts, key t hm ht⟩

end VS.Plugin
