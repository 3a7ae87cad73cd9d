import Verif.Pool.Calls

/-!
# Schedules that can be computed, for the examples
-/

namespace VS.Pool

variable {F L : Type}

deriving instance DecidableEq for Except
deriving instance DecidableEq for Event

/-- A graph of filters with a function that chooses what they do. -/
structure Fn (F L : Type) where
  graph : Graph F L
  fn : Key → Reason → L → List (Key × F) → Option (Outcome F L)
  ok : ∀ k r l av o, fn k r l av = some o → graph.filter k r l av o

/-- Actions without their arbitrary parts. -/
inductive Act where
  | request (k : Key)
  | flush
  | start
  /-- a cached frame is found if there is one -/
  | lookup
  | ret (c : Nat)
  | complete (c : Nat)
  | callback (c : Nat)

def Act.action (p : Fn F L) (s : State F L) : Act → Action F L
  | .request k => .request k false
  | .flush => .setFlush
  | .start => .start (fun _ => none) (fun _ => false)
  | .lookup => .start (fun k => s.produced.lookup k) (fun _ => false)
  | .ret c =>
    match s.running.find? (fun j => j.c == c) with
    | some j =>
      match p.fn (s.ctx c).key j.reason (s.ctx c).loc (s.ctx c).avail with
      | some o => .ret c o
      | none => .setFlush
    | none => .setFlush
  | .complete c => .complete c
  | .callback c => .callback c

def exec (p : Fn F L) (s : State F L) : List Act → Option (State F L)
  | [] => some s
  | a :: t =>
    match s.step p.graph (a.action p s) with
    | some s' => exec p s' t
    | none => none

theorem exec_run {p : Fn F L} : ∀ (l : List Act) (as : List (Action F L)) (s s' : State F L), Run p.graph as s →
    (s.dead = none) → exec p s l = some s' → ∃ as', Run p.graph as' s'
  | [], as, s, s', h, _, e => by injection e with e; subst e; exact ⟨as, h⟩
  | a :: t, as, s, s', h, hd, e => by
    unfold exec at e
    split at e
    · next s1 hs1 =>
      have hleg : (a.action p s).legal p.graph s := by
        cases a with
        | request k => trivial
        | flush => trivial
        | start => intro k f hx; cases hx
        | lookup => intro k f hx; exact lookup_some hx
        | ret c =>
          unfold Act.action
          simp only
          split
          · next j hj =>
            split
            · next o ho =>
              intro i hi hic
              have h1 : j.c = c := by have := List.find?_some hj; simpa using this
              have : i = j := (run_inv h hd).acc.job_inj hi (List.mem_of_find?_eq_some hj) (hic.trans h1.symm)
              subst this
              exact p.ok _ _ _ _ _ ho
            · trivial
          · trivial
        | complete c => trivial
        | callback c => trivial
      cases hd1 : s1.dead with
      | none => exact exec_run t _ s1 s' (.snoc h hleg hs1) hd1 e
      | some m =>
        cases t with
        | nil => injection e with e; subst e; exact ⟨_, .snoc h hleg hs1⟩
        | cons b t =>
          unfold exec at e
          unfold State.step at e
          rw [hd1] at e
          simp at e
    · cases e

/-- The trace of a computed schedule. -/
def traceOf (p : Fn F L) (l : List Act) : Option (List (Event F)) :=
  (exec p (State.init p.graph) l).map (·.trace)

theorem traceOf_run {p : Fn F L} {l : List Act} {t : List (Event F)} (h : traceOf p l = some t) :
    ∃ as s, Run p.graph as s ∧ s.trace = t := by
  unfold traceOf at h
  cases he : exec p (State.init p.graph) l with
  | none => rw [he] at h; cases h
  | some s =>
    rw [he] at h
    injection h with h
    obtain ⟨as, hr⟩ := exec_run l [] _ s .nil rfl he
    exact ⟨as, s, hr, h⟩

/-- Filters given by a function. -/
def Fn.of (numFrames : Nat → Int) (mode : Nat → Mode) (init : L)
    (fn : Key → Reason → L → List (Key × F) → Outcome F L) : Fn F L where
  graph := { numFrames := numFrames, mode := mode, init := init, filter := fun k r l av o => some (fn k r l av) = some o }
  fn k r l av := some (fn k r l av)
  ok := fun _ _ _ _ _ h => h

/-- Node 0 makes frames, node 1 asks for two frames of node 0 and adds them; frame 3 of node 0 cannot be
made. -/
def sample (m0 m1 : Mode) (msg : String) : Fn Nat Unit :=
  Fn.of (fun n => if n = 0 then 4 else 2) (fun n => if n = 0 then m0 else m1) () fun k r _ av =>
    let o : Outcome Nat Unit := Outcome.mk [] [] [] none none ()
    if r = .error then o
    else if k.1 = 0 then
      if k.2 = 3 then { o with err := some msg } else { o with frame := some (k.2.toNat + 10) }
    else if r = .initial then { o with reqs := [(0, 2 * k.2), (0, 2 * k.2 + 1)] }
    else
      { o with frame := some ((av.map Prod.snd).sum) }

end VS.Pool
