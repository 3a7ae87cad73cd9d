import Verif.Pool.Model

/-!
# What users rely on, in terms of what can be observed

A trace lists the events of a schedule, oldest first.  `t1 ++ e :: t2` singles out one event: `t1` happened
before it and `t2` after it.
-/

namespace VS.Pool

variable {F L : Type}

/-- The filter is not called for computation `c`. -/
def NoCall (c : Nat) (t : List (Event F)) : Prop := ∀ k r a, .call c k r a ∉ t

/-- No call for computation `c` returns. -/
def NoRet (c : Nat) (t : List (Event F)) : Prop := ∀ k q e f, .ret c k q e f ∉ t

/-! ## Activation protocol -/

/-- The first call for a computation: the reason is `initial` and nothing is available; only a request from
outside for a frame that does not exist is different, the filter is called with `error`. -/
def FirstCall (g : Graph F L) (t : List (Event F)) (c : Nat) (k : Key) (r : Reason) (av : List (Key × F)) : Prop :=
  NoCall c t ∧ av = [] ∧
  ((r = .initial ∧ (.request c k ∈ t → 0 ≤ k.2 ∧ k.2 < g.numFrames k.1)) ∨
    (r = .error ∧ .request c k ∈ t ∧ ¬ (0 ≤ k.2 ∧ k.2 < g.numFrames k.1)))

/-- A later call: the previous call returned without frame and error but with requests, all of which have
since been served.  If all gave frames the reason is `ready` and each is available, otherwise it is `error`.
The filter has never been called with `error` before. -/
def LaterCall (g : Graph F L) (t : List (Event F)) (c : Nat) (k : Key) (r : Reason) (av : List (Key × F)) : Prop :=
  ∃ u reqs v, t = u ++ .ret c k reqs none none :: v ∧ NoCall c v ∧ NoRet c v ∧ reqs ≠ [] ∧
    (∀ k a, .call c k .error a ∉ t) ∧
    (∀ q ∈ reqs, ∃ d res, .attach c (g.clamp q) d ∈ v ∧ .finish d (g.clamp q) res ∈ v) ∧
    ((r = .ready ∧
        (∀ q ∈ reqs, ∀ d res, .attach c (g.clamp q) d ∈ v → .finish d (g.clamp q) res ∈ v → ∃ f, res = .ok f) ∧
        (∀ q ∈ reqs, ∃ f d, g.getFrame av q = some f ∧ .attach c (g.clamp q) d ∈ t ∧
          .finish d (g.clamp q) (.ok f) ∈ t)) ∨
      (r = .error ∧ ∃ q ∈ reqs, ∃ d m, .attach c (g.clamp q) d ∈ v ∧ .finish d (g.clamp q) (.error m) ∈ v))

/-! ## Exclusion -/

/-- A call for `(c, k)` with reason `r` may start after the events `t`. -/
def MayStart (g : Graph F L) (t : List (Event F)) (c : Nat) (k : Key) (r : Reason) : Prop :=
  ∀ u c' k' r' a v, t = u ++ .call c' k' r' a :: v → k'.1 = k.1 →
    match g.mode k.1 with
    -- nothing is promised, except that there is one call for a computation at a time
    | .parallel => c' = c → ∃ k q e f, .ret c' k q e f ∈ v
    -- two calls with reason `ready` do not overlap
    | .parallelRequests => (c' = c ∨ (r = .ready ∧ r' = .ready)) → ∃ k q e f, .ret c' k q e f ∈ v
    -- no two calls overlap
    | .unordered => ∃ k q e f, .ret c' k q e f ∈ v
    -- no two calls overlap, and no call for another computation is between two calls of one computation
    | .frameState => (∃ k q e f, .ret c' k q e f ∈ v) ∧
        (c' = c → ∀ d kd rd ad, .call d kd rd ad ∈ v → kd.1 = k.1 → d = c)

/-! ## Errors -/

/-- Why a computation failed with message `m`: `chain c k m` if the number was invalid, if the filter
reported the error, or if a frame it asked for could not be made for such a reason. -/
inductive Cause (g : Graph F L) (t : List (Event F)) : Nat → Key → String → Prop where
  | invalid {c : Nat} {k : Key} : .request c k ∈ t → ¬ (0 ≤ k.2 ∧ k.2 < g.numFrames k.1) →
      Cause g t c k (invalidMsg k.2 (g.numFrames k.1))
  | filter {c : Nat} {k : Key} {q : List Key} {m : String} {f : Option F} :
      .ret c k q (some m) f ∈ t → Cause g t c k m
  | input {c : Nat} {k : Key} {q : Key} {d : Nat} {m : String} : .attach c q d ∈ t →
      .finish d q (.error m) ∈ t → Cause g t d q m → Cause g t c k m

/-! ## Nothing left to do -/

/-- No computation is queued, running or being delivered. -/
def State.quiet (s : State F L) : Prop :=
  s.tasks = [] ∧ s.alt = [] ∧ s.running = [] ∧ s.finished = [] ∧ s.returning = []

/-- Filters only ever ask for frames of nodes with a lower rank: the graph has no cycle. -/
def Graph.Acyclic (g : Graph F L) (rank : Nat → Nat) : Prop :=
  ∀ as s, Run g as s → s.dead = none → ∀ c k reqs err f, .ret c k reqs err f ∈ s.trace →
    ∀ q ∈ reqs, rank q.1 < rank k.1

end VS.Pool
