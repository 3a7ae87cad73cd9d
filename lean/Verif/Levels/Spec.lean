import Verif.Levels.Model
import Verif.Generic.ConvSpec

/-! # What Levels computes -/

namespace VS.Levels.Spec
open VS VS.Format VS.Pix VS.Point VS.Point.Spec VS.Pixel VS.Pixel.Spec VS.Generic VS.Generic.Spec VS.Levels

/-- The number of an argument for plane `p`: its element, the last one for the planes that follow, or the default. -/
def NumFor (F : LFloats) (vals : List Nat) (d : Rat) (p : Nat) (q : Rat) : Prop :=
  (vals = [] ∧ q = d) ∨ ∃ b, element vals p = some b ∧ single F.toFloats b = some q

/-- The arguments of a clip. -/
structure Args where
  minIn : List Nat := []
  maxIn : List Nat := []
  minOut : List Nat := []
  maxOut : List Nat := []
  gamma : List Nat := []

/-- Not more values than planes. -/
def CountOk (f : VFmt) (a : Args) : Prop :=
  (a.minIn.length : Int) ≤ f.numPlanes ∧ (a.maxIn.length : Int) ≤ f.numPlanes ∧ (a.minOut.length : Int) ≤ f.numPlanes ∧
  (a.maxOut.length : Int) ≤ f.numPlanes ∧ (a.gamma.length : Int) ≤ f.numPlanes

/-- The largest sample, 1 for floats. -/
def white (f : VFmt) : Rat := if f.sampleType = stInteger then ((top f : Nat) : Rat) else 1

/-- `minIn`, `maxIn`, `minOut`, `maxOut` and `gamma` are the numbers for plane `p` and make sense. -/
def PlaneIs (F : LFloats) (f : VFmt) (a : Args) (p : Nat) (minIn maxIn minOut maxOut gamma : Rat) : Prop :=
  NumFor F a.minIn 0 p minIn ∧ NumFor F a.maxIn (white f) p maxIn ∧ NumFor F a.minOut 0 p minOut ∧ NumFor F a.maxOut (white f) p maxOut ∧
  NumFor F a.gamma 1 p gamma ∧ minIn < maxIn ∧ 0 < gamma

/-- The ends of the ranges of integer clips are rounded to integers. -/
structure Rounded where
  minIn : Int
  maxIn : Int
  minOut : Int
  maxOut : Int

/-- They are not too large and the range of the input isn't empty. -/
def Rounded.Ok (r : Rounded) : Prop :=
  r.minIn < r.maxIn ∧ rabs ((r.maxIn - r.minIn : Int) : Rat) < 2 ^ 127 ∧ rabs ((r.maxOut - r.minOut : Int) : Rat) < 2 ^ 127

/-- The rounded ends for plane `p`. -/
def RoundedIs (F : LFloats) (f : VFmt) (a : Args) (p : Nat) (r : Rounded) (gamma : Rat) : Prop :=
  ∃ minIn maxIn minOut maxOut, PlaneIs F f a p minIn maxIn minOut maxOut gamma ∧ RoundsTo minIn r.minIn ∧ RoundsTo maxIn r.maxIn ∧
    RoundsTo minOut r.minOut ∧ RoundsTo maxOut r.maxOut

/-- How far a sample is in the range of the input, from 0 to 1. -/
def ratio (r : Rounded) (v : Nat) : Rat := ((max (min (v : Int) r.maxIn) r.minIn - r.minIn : Int) : Rat) / ((r.maxIn - r.minIn : Int) : Rat)

/-- The result for the sample `v`: the ratio to the power of 1 / `gamma`, moved to the range of the output, rounded and limited; up to the
errors of single precision. Samples outside of the range of the input give exactly the ends of the range of the output, and without
`gamma` the range is moved linearly. -/
def LevelsValue (F : LFloats) (t : Nat) (r : Rounded) (gamma : Rat) (v res : Nat) : Prop :=
  res ≤ t ∧
  (∃ x y, rabs (x - ratio r v) ≤ ratio r v / 2 ^ 21 + 1 / 2 ^ 100 ∧ (gamma = 1 → y = x) ∧ y = F.pow x (inverse F.toFloats gamma) ∧
    rabs ((res : Rat) - max 0 (min (y * ((r.maxOut - r.minOut : Int) : Rat) + r.minOut) t)) ≤
      1 / 2 + (rabs (y * ((r.maxOut - r.minOut : Int) : Rat)) + rabs r.minOut) / 2 ^ 20 + 1 / 2 ^ 7) ∧
  (r.minOut.natAbs ≤ 2 ^ 23 → r.maxOut.natAbs ≤ 2 ^ 23 →
    ((v : Int) ≤ r.minIn → (res : Int) = max 0 (min r.minOut t)) ∧ (r.maxIn ≤ v → (res : Int) = max 0 (min r.maxOut t)))

end VS.Levels.Spec
