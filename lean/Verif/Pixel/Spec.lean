import Verif.Pixel.Model
import Verif.Point.Spec

/-! # Arguments of filters on single samples -/

namespace VS.Pixel.Spec
open VS VS.Format VS.Pix VS.Point VS.Point.Spec

/-- The largest sample. -/
def top (f : VFmt) : Nat := 2 ^ f.bitsPerSample.toNat - 1

/-- `v` is the integer next to `q`, up to a tiny error of the double precision sum. -/
def Near (q : Rat) (v : Nat) : Prop := rabs (q - v) ≤ 1 / 2 + 1 / 2 ^ 30

/-- The element of an argument for plane `p`: the last one is also for the planes that follow. -/
def element (vals : List Nat) (p : Nat) : Option Nat := vals[min p (vals.length - 1)]?

/-- `v` is the integer for plane `p`, `d` if there is no argument. -/
def IntFor (F : Floats) (vals : List Nat) (d p v : Nat) : Prop :=
  (vals = [] ∧ v = d) ∨ ∃ b q, element vals p = some b ∧ F.value b = some q ∧ Near q v

/-- The float for plane `p`, `d` if there is no argument. -/
def floatFor (F : Floats) (vals : List Nat) (d : Rat) (p : Nat) : Nat :=
  match element vals p with
  | some b => F.single b
  | none => F.const d

/-- Not more values than planes, all of them samples. -/
def InBounds (F : Floats) (f : VFmt) (vals : List Nat) : Prop :=
  (vals.length : Int) ≤ f.numPlanes ∧ ∀ b ∈ vals, ∃ q, F.value b = some q ∧ 0 ≤ q ∧ q ≤ top f

/-- The chroma planes of YUV have samples around zero. -/
def Centered (f : VFmt) (mask : Bool) (p : Nat) : Prop := mask = false ∧ f.colorFamily = cfYUV ∧ 0 < p

instance (f : VFmt) (mask : Bool) (p : Nat) : Decidable (Centered f mask p) := inferInstanceAs (Decidable (_ ∧ _ ∧ _))

/-- The kind of floating point samples. -/
def floatKind (f : VFmt) : Kind := if f.bitsPerSample = 32 then .single else .half

end VS.Pixel.Spec
