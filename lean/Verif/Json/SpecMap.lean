import Verif.Map.PropsDict
import Verif.Json.Spec

/-!
# What vspipe promises to write for a property map
-/

namespace VS.Json
open VS VS.Map

/-- Printable ASCII. -/
def Ascii (s : List Nat) : Prop := ∀ c ∈ s, 32 ≤ c ∧ c ≤ 126

/-- The JSON value standing for a property value.  Byte strings appear as strings if they are marked as text (type
hint 1) or unmarked (-1), short and printable; of others only the size is given.  A double appears as the decimal
number `fixed` gives for it; the code has room for 100 characters. -/
inductive Means (fixed : Nat → List Nat) : Val → Json → Prop
  | int (i : Int) : Means fixed (.int i) (.num ⟨decide (i < 0), i.natAbs, [], none⟩)
  | float (b : Nat) (neg : Bool) (i f : List Nat) : Digits i f → fixed b = numText neg i f → (fixed b).length ≤ 100 →
      Means fixed (.float b) (.num ⟨neg, digits i, f, none⟩)
  | text (s : List Nat) : IsUtf8 s → 0 ∉ s → Means fixed (.data 1 s) (.str s)
  | plain (s : List Nat) : Ascii s → s.length < 200 → Means fixed (.data (-1) s) (.str s)
  | binary (h : Int) (s : List Nat) : h ≠ 1 → ¬ (h = -1 ∧ s.length < 200 ∧ Ascii s) →
      Means fixed (.data h s) (.str (keyBytes ("[binary data size: " ++ toString s.length ++ "]")))

/-- The JSON value for all values of a key: `null` for none, an array for several. -/
inductive Shows (fixed : Nat → List Nat) : List Val → Json → Prop
  | none : Shows fixed [] .null
  | one (v : Val) (j : Json) : Means fixed v j → Shows fixed [v] j
  | many (l : List Val) (js : List Json) : 2 ≤ l.length → js.length = l.length →
      (∀ (i : Nat) (v : Val) (j : Json), l[i]? = some v → js[i]? = some j → Means fixed v j) → Shows fixed l (.arr js)

/-- The JSON object `v` describes the dictionary: its keys in increasing order, each once, with their values. -/
def Describes (fixed : Nat → List Nat) (d : Spec.Dict) (v : Json) : Prop :=
  ∃ l : List (Key × Json), v = .obj (l.map (fun p => (keyBytes p.1, p.2))) ∧ (l.map (·.1)).Pairwise (· < ·) ∧
    (∀ k, (∃ j, (k, j) ∈ l) ↔ d.get k ≠ none) ∧
    ∀ k j, (k, j) ∈ l → ∃ ty vs, d.get k = some (ty, vs) ∧ Shows fixed vs j

/-- The maps vspipe can write: no error message; no `_ColorRange` key, which only exists for values that are not
integers (C04); every value has a JSON counterpart. -/
structure Plain (fixed : Nat → List Nat) (d : Spec.Dict) : Prop where
  err : d.err = false
  range : d.get "_ColorRange" = none
  values : ∀ k ty vs, d.get k = some (ty, vs) → ∃ j, Shows fixed vs j

end VS.Json
