import Verif.Pool.Spec

/-!
# Filters that are functions of their inputs

What such a filter does for a frame is a tree: it delivers a frame, fails, or asks for frames and goes on
with what it gets.
-/

namespace VS.Pool

variable {F : Type}

inductive Prog (F : Type) where
  | done (f : F)
  | fail (m : String)
  | ask (ks : List Key) (next : List F → Prog F)

/-- What a filter keeps between two calls. -/
abbrev Kept (F : Type) := Option (List Key × (List F → Prog F))

/-- A graph of such filters. -/
structure Program (F : Type) where
  numFrames : Nat → Int
  mode : Nat → Mode
  prog : Key → Prog F

/-! ## Evaluation without scheduler -/

/-- All frames of a list, or nothing. -/
def collect (ev : Key → Option F) : List Key → Option (List F)
  | [] => some []
  | k :: t =>
    match ev k, collect ev t with
    | some f, some fs => some (f :: fs)
    | _, _ => none

/-- The result of a tree, given the results of the frames it asks for. -/
def Prog.eval (ev : Key → Option F) : Prog F → Option F
  | .done f => some f
  | .fail _ => none
  | .ask ks next =>
    match collect ev ks with
    | none => none
    | some fs => (next fs).eval ev

/-- Requests beyond the end are for the last frame. -/
def Program.last (P : Program F) (k : Key) : Key :=
  if k.2 ≥ P.numFrames k.1 then (k.1, P.numFrames k.1 - 1) else k

/-- Recursive evaluation to depth `n`. -/
def Program.evalTo (P : Program F) : Nat → Key → Option F
  | 0, _ => none
  | n + 1, k => (P.prog k).eval (fun q => P.evalTo n (P.last q))

/-- All frames asked for are of nodes with a rank below `b`. -/
inductive Prog.Below (rank : Nat → Nat) (b : Nat) : Prog F → Prop where
  | done {f : F} : Prog.Below rank b (.done f)
  | fail {m : String} : Prog.Below rank b (.fail m)
  | ask {ks : List Key} {next : List F → Prog F} : (∀ q ∈ ks, rank q.1 < b) →
      (∀ fs, Prog.Below rank b (next fs)) → Prog.Below rank b (.ask ks next)

/-- The graph has no cycle. -/
def Program.Acyclic (P : Program F) (rank : Nat → Nat) : Prop := ∀ k, (P.prog k).Below rank (rank k.1)

/-- The result of a frame, computed recursively; the rank of the node is deep enough. -/
def Program.eval (P : Program F) (rank : Nat → Nat) (k : Key) : Option F := P.evalTo (rank k.1 + 1) k

/-! ## As filters of the scheduler -/

/-- A call that carries out the root of a tree. -/
def Prog.does (p : Prog F) (o : Outcome F (Kept F)) : Prop :=
  match p with
  | .done f => o.reqs = [] ∧ o.err = none ∧ o.frame = some f
  | .fail m => o.reqs = [] ∧ o.err = some m ∧ o.frame = none
  | .ask ks next => o.reqs = ks ∧ o.err = none ∧ o.frame = none ∧ o.loc = some (ks, next)

/-- The filters: they may give back frames early and put right frames into the cache; if a frame they asked
for could not be made they return nothing. -/
def Program.graph (P : Program F) (rank : Nat → Nat) : Graph F (Kept F) where
  numFrames := P.numFrames
  mode := P.mode
  init := none
  filter k r l av o :=
    (∀ a ∈ o.caches, P.eval rank (k.1, a.1) = some a.2) ∧
    match r with
    | .initial => (P.prog k).does o
    | .ready => ∃ ks next fs, l = some (ks, next) ∧
        collect (fun q => av.lookup (if P.numFrames q.1 ≠ 0 ∧ q.2 ≥ P.numFrames q.1
          then (q.1, P.numFrames q.1 - 1) else q)) ks = some fs ∧ (next fs).does o
    | .error => o.reqs = [] ∧ o.frame = none

/-- Requests are never empty and never for frames of an empty clip or with negative numbers, which the
core answers by ending the process. -/
inductive Prog.Fine (P : Program F) : Prog F → Prop where
  | done {f : F} : Prog.Fine P (.done f)
  | fail {m : String} : Prog.Fine P (.fail m)
  | ask {ks : List Key} {next : List F → Prog F} : ks ≠ [] → (∀ q ∈ ks, 0 ≤ (P.last q).2) →
      (∀ fs, Prog.Fine P (next fs)) → Prog.Fine P (.ask ks next)

end VS.Pool
