import Verif.Point.Mem
import Verif.Pix.Spec

/-! # Samples of pictures -/

namespace VS.Point.Spec
open VS VS.Format VS.Map VS.Map.Spec VS.Pix VS.Pix.Spec

/-- The number in a list of bytes, lowest first. -/
def number : List Nat → Nat
  | [] => 0
  | b :: t => b % 256 + 256 * number t

/-- The sample in column `x` and row `y` of plane `p`: a number, or the bits of a floating point number. -/
def smp (al : Nat) (f : Frm) (p x y : Nat) : Nat := number ((img al f p).px x y)

/-- Planes that are to be processed: all if the argument is not given. -/
def Wanted (planes : List Int) (p : Nat) : Prop := planes = [] ∨ (p : Int) ∈ planes

instance (planes : List Int) (p : Nat) : Decidable (Wanted planes p) := inferInstanceAs (Decidable (_ ∨ _))

/-- A valid list of planes: numbers from 0 to 2, each at most once. -/
def PlanesOk (planes : List Int) : Prop := (∀ p ∈ planes, 0 ≤ p ∧ p ≤ 2) ∧ planes.Nodup

instance (planes : List Int) : Decidable (PlanesOk planes) := inferInstanceAs (Decidable (_ ∧ _))

/-- Integer samples use only the bits that the format says. -/
def InRange (al : Nat) (f : Frm) : Prop :=
  ∀ (p x y : Nat), (p : Int) < f.fmt.numPlanes → x < f.w p → y < f.h p → smp al f p x y < 2 ^ f.fmt.bitsPerSample.toNat

/-- Formats most filters can work on: 8 to 16 bit integer, 16 or 32 bit float. -/
def Workable (f : VFmt) : Prop :=
  f.colorFamily ≠ cfUndefined ∧ (f.sampleType = stInteger → f.bitsPerSample ≤ 16) ∧
    (f.sampleType = stFloat → f.bitsPerSample = 16 ∨ f.bitsPerSample = 32)

/-- Constant format and size. -/
def Constant (vi : VInfo) : Prop := 0 < vi.width ∧ 0 < vi.height ∧ vi.format.colorFamily ≠ cfUndefined

/-- Two clips of the same format and size. -/
def Fit (a b : VInfo) : Prop := a.width = b.width ∧ a.height = b.height ∧ a.format = b.format

/-- Frame `n` of the result of a filter with the inputs `clips` has the given format, size and properties, and
sample `x`, `y` of plane `p` is `S p x y`. -/
def Gives (al : Nat) (C : Created) (clips : List PClip) (n : Nat) (fmt : VFmt) (w h : Nat) (props : Dict)
    (S : Nat → Nat → Nat → Int) : Prop :=
  ∀ junk, ∃ g, C.frame clips n junk = .ok g ∧ Valid al g ∧ g.fmt = fmt ∧ g.width = w ∧ g.height = h ∧ g.props = props ∧
    ∀ p x y : Nat, (p : Int) < fmt.numPlanes → x < g.w p → y < g.h p → (smp al g p x y : Int) = S p x y

/-- The same for a filter with samples that are numbers or bit patterns: only what a filter computes is known. -/
def GivesN (al : Nat) (C : Created) (clips : List PClip) (n : Nat) (fmt : VFmt) (w h : Nat) (props : Dict)
    (S : Nat → Nat → Nat → Nat) : Prop := Gives al C clips n fmt w h props fun p x y => (S p x y : Int)

end VS.Point.Spec
