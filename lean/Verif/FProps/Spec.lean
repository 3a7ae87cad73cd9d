import Verif.FProps.Model
import Verif.Map.PropsDict

/-!
# What the filters that change frame properties promise

Properties are the plain dictionaries of `Verif/Map/Spec.lean`.
-/

namespace VS.FProps.Spec
open VS VS.Map VS.Map.Spec VS.FProps

/-- All frames after one more has been made: the new one has the properties `d`; `src` is gone if it was used for the
last time; nothing else has changed. -/
def after (s : State) (src : Nat) (last : Bool) (d : Dict) : State := (if last then s.set src none else s) ++ [some d]

/-- The same for a filter that reads two frames. -/
def after2 (s : State) (a b : Nat) (la lb : Bool) (d : Dict) : State :=
  (if lb then (if la then s.set a none else s).set b none else if la then s.set a none else s) ++ [some d]

/-- The call succeeds with a new frame; the history goes on with the dictionaries `s'`. -/
def Gives (ops : List Op) (s : State) (r : Res (World × Nat)) (s' : State) : Prop :=
  ∃ w' more, r = .ok (w', s.length) ∧ Leads (ops ++ more) w' s'

/-- What `SetFrameProp` puts in. -/
def setTo (d : Dict) (k : Key) (ints : Option (List Int)) (floats : Option (List Nat))
    (strings : Option (List (Int × List Nat))) : Dict :=
  match ints, floats, strings with
  | some l, _, _ => d.put (canon k) (some (.int, l.map fun i => .int (trans k i)))
  | none, some l, _ => d.put k (some (.float, l.map .float))
  | none, none, some l => d.put k (some (.data, l.map fun x => .data x.1 x.2))
  | none, none, none => d

/-- Wildcards: `*` stands for any characters, `?` for a single one. -/
inductive Glob : List Char → List Char → Prop where
  | nil : Glob [] []
  | char (c : Char) (p s : List Char) : c ≠ '*' → c ≠ '?' → Glob p s → Glob (c :: p) (c :: s)
  | one (c : Char) (p s : List Char) : Glob p s → Glob ('?' :: p) (c :: s)
  | none (p s : List Char) : Glob p s → Glob ('*' :: p) s
  | more (c : Char) (p s : List Char) : Glob ('*' :: p) s → Glob ('*' :: p) (c :: s)

/-- A name that one of the patterns fits. -/
def Matched (pats : List String) (k : Key) : Prop := ∃ p ∈ pats, Glob p.toList k.toList

/-- References in properties: none is null, and each is stored under its own kind. -/
def Refs (vn vf : Nat → Bool) : Entry → Prop
  | (.videoNode, l) => ∀ v ∈ l, ∃ p, v = .obj (some p) ∧ vn p = true
  | (.audioNode, l) => ∀ v ∈ l, ∃ p, v = .obj (some p) ∧ vn p = false
  | (.videoFrame, l) => ∀ v ∈ l, ∃ p, v = .obj (some p) ∧ vf p = true
  | (.audioFrame, l) => ∀ v ∈ l, ∃ p, v = .obj (some p) ∧ vf p = false
  | (.function, l) => ∀ v ∈ l, ∃ p, v = .obj (some p)
  | (.unset, _) => False
  | _ => True

/-- Some properties are those of `e`, the others those of `d`. -/
def pick (ks : List Key) (d e : Dict) : Dict := ⟨d.err, fun k => if k ∈ ks then e.get k else d.get k⟩

end VS.FProps.Spec
