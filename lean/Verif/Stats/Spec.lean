import Verif.Stats.Model
import Verif.Pixel.Spec

/-! # What PlaneStats computes -/

namespace VS.Stats.Spec
open VS VS.Format VS.Map VS.Map.Spec VS.Pix VS.Pix.Spec VS.Point VS.Point.Spec VS.Pixel VS.Pixel.Spec VS.Stats

/-- What a function gives for all places of a plane, row by row. -/
def each {α : Type} (f : Frm) (p : Nat) (v : Nat → Nat → α) : List α :=
  (List.range (f.h p)).flatMap fun y => (List.range (f.w p)).map fun x => v x y

/-- The samples of a plane. -/
def samples (al : Nat) (f : Frm) (p : Nat) : List Nat := each f p fun x y => smp al f p x y

/-- The differences of two planes without sign. -/
def diffs (al : Nat) (f g : Frm) (p : Nat) : List Nat :=
  each f p fun x y => max (smp al f p x y) (smp al g p x y) - min (smp al f p x y) (smp al g p x y)

/-- The smallest element. -/
def Least (l : List Nat) (m : Nat) : Prop := m ∈ l ∧ ∀ v ∈ l, m ≤ v

/-- The largest element. -/
def Greatest (l : List Nat) (m : Nat) : Prop := m ∈ l ∧ ∀ v ∈ l, v ≤ m

/-- `q` is the average of a list, where `t` counts as 1, up to the errors of double precision; 0 and 1 are exact. -/
def Mean (l : List Nat) (t : Nat) (q : Rat) : Prop :=
  0 ≤ q ∧ rabs (q - (l.sum : Rat) / (l.length * t : Nat)) ≤ (l.sum : Rat) / (l.length * t : Nat) / 2 ^ 51 ∧
  (q = 0 ↔ ∀ v ∈ l, v = 0) ∧ ((∀ v ∈ l, v ≤ t) → q ≤ 1) ∧ ((∀ v ∈ l, v = t) → q = 1)

/-- Prefixes that make valid names. -/
def PrefixOk (s : String) : Prop := s = "" ∨ KeyOk s = true

/-- `g` is frame `f` with other properties: those with the given names. -/
def OnlyProps (f g : Frm) (l : List (Key × Entry)) : Prop :=
  g.fmt = f.fmt ∧ g.width = f.width ∧ g.height = f.height ∧ g.planes = f.planes ∧ g.props.err = f.props.err ∧
  (∀ e ∈ l, g.props.get e.1 = some e.2) ∧ ∀ k, (∀ e ∈ l, k ≠ e.1) → g.props.get k = f.props.get k

end VS.Stats.Spec
