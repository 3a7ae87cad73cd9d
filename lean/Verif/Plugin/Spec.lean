import Verif.Plugin.Model

/-!
# What signatures, plugins and manifests mean

Independent of how strings are scanned and tables kept.
-/

namespace VS.Plugin.Spec
open VS VS.Plugin
open VS.Map (PType)

/-- `Pieces sep s ps`: `ps` are the non-empty pieces of `s` between separators. -/
inductive Pieces (sep : Char → Prop) : List Char → List (List Char) → Prop
  | nil : Pieces sep [] []
  | skip {c t ps} : sep c → Pieces sep t ps → Pieces sep (c :: t) ps
  | last {p} : p ≠ [] → (∀ c ∈ p, ¬ sep c) → Pieces sep p [p]
  | piece {p c t ps} : p ≠ [] → (∀ c ∈ p, ¬ sep c) → sep c → Pieces sep t ps →
      Pieces sep (p ++ c :: t) (p :: ps)

/-- A letter followed by letters, digits and underscores. -/
def Ident (s : List Char) : Prop :=
  ∃ c t, s = c :: t ∧ c.isAlpha = true ∧ ∀ x ∈ t, x.isAlphanum = true ∨ x = '_'

/-- The names of the argument types for plugins of version 3 and 4. -/
def types (api : Int) : List (String × PType) :=
  if api = 3 then
    [("int", .int), ("float", .float), ("data", .data), ("clip", .videoNode),
      ("frame", .videoFrame), ("func", .function)]
  else
    [("int", .int), ("float", .float), ("data", .data), ("vnode", .videoNode),
      ("anode", .audioNode), ("vframe", .videoFrame), ("aframe", .audioFrame),
      ("func", .function)]

/-- The entry that stands for "any further arguments". -/
def anyArg : FArg := ⟨"", .unset, false, false, false⟩

/-- What one argument of a signature says. -/
inductive Describes (api : Int) (s : List Char) : FArg → Prop
  /-- the word `any` -/
  | any : Pieces (· = ':') s ["any".toList] → Describes api s anyArg
  /-- `name:type`, `[]` for arrays, then `opt` and `empty` at most once each in any order;
  `empty` only for arrays -/
  | arg {name ty : List Char} {tn : String} {pt : PType} {mods : List (List Char)}
      {arr empty opt : Bool} :
      Pieces (· = ':') s (name :: ty :: mods) →
      Ident name →
      (tn, pt) ∈ types api →
      ty = tn.toList ++ (if arr then "[]".toList else []) →
      List.Perm mods ((if opt then ["opt".toList] else []) ++
        (if empty then ["empty".toList] else [])) →
      (empty = true → arr = true) →
      Describes api s ⟨String.ofList name, pt, arr, empty, opt⟩

/-- Two lists of the same length related entry by entry. -/
inductive Each {α β : Type} (R : α → β → Prop) : List α → List β → Prop
  | nil : Each R [] []
  | cons {a b l m} : R a b → Each R l m → Each R (a :: l) (b :: m)

/-- `Signature api s args`: the text `s` is well formed and declares `args`. -/
def Signature (api : Int) (s : String) (args : List FArg) : Prop :=
  ∃ ps, Pieces (· = ';') s.toList ps ∧ Each (Describes api) ps args

/-- The argument map meets the signature: every declared argument that is present has the
declared type, more than one value only if it is an array and no value only if allowed; the
absent ones are optional; undeclared ones only if the signature has `any`. -/
def Conforms (sig : List FArg) (m : AMap) : Prop :=
  (∀ a ∈ sig, a.type ≠ .unset →
    match m.find a.name with
    | none => a.opt = true
    | some (t, n) => t = a.type ∧ (a.arr = true ∨ n ≤ 1) ∧ (a.empty = true ∨ 1 ≤ n)) ∧
  ((∃ a ∈ sig, a.type = .unset) ∨
    ∀ e ∈ m, ∃ a ∈ sig, a.type ≠ .unset ∧ a.name = e.1)

/-- Keys of a property map occur once and every entry has a type. -/
def GoodMap (m : AMap) : Prop := (m.map (·.1)).Nodup ∧ ∀ e ∈ m, e.2.1 ≠ .unset

/-- The loaded plugins: those in the table. -/
def Loaded (c : Core) (p : Plugin) : Prop := ∃ k, (k, p) ∈ c.plugins

/-- The functions of a plugin. -/
def Has (p : Plugin) (f : PFunc) : Prop := ∃ k, (k, f) ∈ p.funcs

/-- A table of plugins that some program can have brought about: a new core (with any built-in
functions) followed by any history of loads and registrations. -/
def Reachable (c : Core) : Prop :=
  ∃ lib std resize text c0 calls, newCore lib std resize text = .ok c0 ∧ c0.run calls = .ok c

/-- `Walk c cur ids c'`: a program that stands at plugin `cur` (`none`: before the first) asks for
the next plugin again and again until it gets a null pointer, doing anything it likes in
between, and sees the plugins `ids`. -/
inductive Walk : Core → Option String → List String → Prop
  | stop {c cur} : c.nextPlugin cur = none → Walk c cur []
  | step {c cur p calls c' ids} : c.nextPlugin cur = some p → c.run calls = .ok c' →
      Walk c' (some p.id) ids → Walk c cur (p.id :: ids)

/-- The same for the functions of the plugin with identifier `q`. -/
inductive WalkFunctions (q : String) : Core → Option String → List String → Prop
  | stop {c cur p} : c.pluginByID q = some p → p.nextFunction cur = none →
      WalkFunctions q c cur []
  | step {c cur p f calls c' ids} : c.pluginByID q = some p → p.nextFunction cur = some f →
      c.run calls = .ok c' → WalkFunctions q c' (some f.name) ids →
      WalkFunctions q c cur (f.name :: ids)

/-- End of line characters. -/
def Newline (c : Char) : Prop := c = '\r' ∨ c = '\n'

end VS.Plugin.Spec
