import Verif.Pipe.Model

/-!
# What vspipe should write
-/

namespace VS.Pipe

def Item.frame : Item → Nat
  | .header n | .plane n _ | .alphaPlane n _ | .timecode n | .json n _ => n

/-- The order of the writes for one frame. -/
def Item.stage : Item → Nat
  | .header _ => 0
  | .plane _ _ => 1
  | .alphaPlane _ _ => 2
  | .timecode _ => 3
  | .json _ _ => 4

def Item.index : Item → Nat
  | .plane _ p | .alphaPlane _ p => p
  | _ => 0

/-- `i` has to be written before `j`: it belongs to an earlier frame or comes earlier in the same one. -/
def Item.Before (i j : Item) : Prop :=
  i.frame < j.frame ∨ i.frame = j.frame ∧ (i.stage < j.stage ∨ i.stage = j.stage ∧ i.index < j.index)

/-- The writes the user asked for: the header of y4m, the planes and those of the alpha clip, the timecode and the
properties of every frame; there is a comma after the properties except for the last frame. -/
def Cfg.Wanted (c : Cfg) : Item → Prop
  | .header n => n < c.total ∧ c.outFile = true ∧ c.y4m = true
  | .plane n p => n < c.total ∧ c.outFile = true ∧ p < c.planes
  | .alphaPlane n p => n < c.total ∧ c.outFile = true ∧ c.alpha = true ∧ p < c.alphaPlanes
  | .timecode n => n < c.total ∧ c.timecodes = true
  | .json n comma => n < c.total ∧ c.jsonFile = true ∧ (comma = true ↔ n + 1 ≠ c.total)

end VS.Pipe
