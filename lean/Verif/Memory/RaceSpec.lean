import Verif.Memory.RaceModel

/-! What concurrent callers may do, and the states they can reach. -/

namespace VS.Memory.Race
open VS VS.Memory

/-- The contract of the callers while the core exists. -/
def Legal (c : CMem) : Act → Prop
  | .begin (.allocate n) => n < SZ - 1 - 4095 - 64
  | .begin (.deallocate p) => ∃ u ∈ c.live, u.1.addr + 64 = p
  | .begin (.setLimit _) => True
  | .begin .coreFreed => False
  | .go _ => True

/-- States reachable under any schedule while the core exists. -/
inductive CReach (thr limit n : Nat) : CMem → Prop
  | new : CReach thr limit n (CMem.new thr limit n)
  | step {c c' : CMem} {i : Nat} {a : Act} :
      CReach thr limit n c → Legal c a → cstep c i a = .ok c' → CReach thr limit n c'

/-- The block a thread holds that is neither handed out nor pooled. -/
def transit : Pc → List Block
  | .got _ b => [b]
  | .freeBig b => [b]
  | .freeSmall b => [b]
  | .gcFree _ b _ _ => [b]
  | _ => []

end VS.Memory.Race
