import Verif.Cache.NodeModel

/-!
# What a frame cache should do

The specification looks only at the history of calls and their answers.
-/

namespace VS.Cache.Spec
open VS.Cache

/-- The frame last stored for each number that was not cleared since. -/
def store (m : Int → Option Frame) : Op → (Int → Option Frame)
  | .insert k f => fun x => if x = k then some f else m x
  | .clear => fun _ => none
  | _ => m

/-- The frames stored by a history (oldest call first). -/
def stored (ops : List Op) : Int → Option Frame := ops.foldl store (fun _ => none)

/-- Frame numbers ordered by last use, most recent first, without repetition.  Storing a frame
and finding it are uses; a failed lookup is not. -/
def use (l : List Int) : Op × Option Frame → List Int
  | (.insert k _, _) => k :: l.filter (· ≠ k)
  | (.lookup k, some _) => k :: l.filter (· ≠ k)
  | _ => l

/-- The recency order after a history of calls with their answers. -/
def recency (h : List (Op × Option Frame)) : List Int := h.foldl use []

/-- An ideal cache for `m` frames: a lookup answers with what was stored exactly if the number is
among the `m` most recently used ones. -/
def ideal (m : Nat) : List (Op × Option Frame) → List Op → List (Option Frame)
  | _, [] => []
  | past, .lookup k :: t =>
    let r := if k ∈ (recency past).take m then stored (past.map (·.1)) k else none
    r :: ideal m (past ++ [(.lookup k, r)]) t
  | past, op :: t => none :: ideal m (past ++ [(op, none)]) t

/-- Calls a filter makes: storing and looking up. -/
def plain : Op → Bool
  | .insert .. => true
  | .lookup _ => true
  | _ => false

/-! ## Which nodes cache -/

/-- How caching of a node was last set by the user. -/
inductive Mode where
  | auto | off | on | linear
  deriving DecidableEq, Repr

/-- A filter that declares itself linear keeps its cache for good; otherwise the last valid
explicit setting counts. -/
def setMode (m : Mode) : NOp → Mode
  | .setLinear _ => .linear
  | .setCacheMode x =>
    if m = .linear then m
    else if x = -1 then .auto else if x = 0 then .off else if x = 1 then .on else m
  | _ => m

def mode (ops : List NOp) : Mode := ops.foldl setMode .auto

/-- The consumers attached to the node. -/
def attach (cs : List Consumer) : NOp → List Consumer
  | .addConsumer c => cs ++ [c]
  | .removeConsumer c => cs.erase c
  | _ => cs

def attached (ops : List NOp) : List Consumer := ops.foldl attach []

/-- The documented rule: caching is pointless only if the single consumer never asks for a frame
twice (request patterns 1 `rpNoFrameReuse` and 2 `rpStrictSpatial`). -/
def Active (ops : List NOp) : Prop :=
  match mode ops with
  | .linear => True
  | .on => True
  | .off => False
  | .auto => ¬ ∃ c, attached ops = [c] ∧ (c.pattern = 1 ∨ c.pattern = 2)

/-- Only the last frame is worth keeping: the single consumer asks only for that one repeatedly
(request pattern 3 `rpFrameReuseLastOnly`). -/
def LastOnly (ops : List NOp) : Prop :=
  mode ops = .auto ∧ ∃ c, attached ops = [c] ∧ c.pattern = 3

/-- `f` was stored for `k` and the cache was not flushed since. -/
def Held (ops : List NOp) (k : Int) (f : Frame) : Prop :=
  ∃ pre post op, ops = pre ++ op :: post ∧ (op = .store k f ∨ op = .cacheFrame k f) ∧
    ∀ b, NOp.clearCache b ∉ post

end VS.Cache.Spec
