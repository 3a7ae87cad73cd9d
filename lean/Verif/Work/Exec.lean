import Verif.Work.Bound
import Verif.Pool.Exec

/-!
# Schedules that can be computed, for the examples
-/

namespace VS.Work

open VS.Pool (Key Graph Outcome Job Fn)

variable {F L : Type}

/-- Actions without their arbitrary parts. -/
inductive Act where
  | request (k : Key) (async : Bool)
  | block (i : Nat) (k : Key)
  | unblock (i : Nat)
  | scan (i : Nat)
  /-- calls are refused for lack of memory -/
  | full (i : Nat)
  | ret (i : Nat)
  | complete (i : Nat)
  | enter (i : Nat)
  | leave (i : Nat)
  | resume (i : Nat)
  | wake (i : Nat)
  | threads (n : Nat)
  | stop

def Act.action (p : Fn F L) (s : State F L) : Act → Action F L
  | .request k async => .request k async false 0
  | .block i k => .block i k false 0
  | .unblock i => .unblock i
  | .scan i => .scan i (fun _ => none) (fun _ => false) (fun _ => false) (fun _ => 0) false
  | .full i => .scan i (fun _ => none) (fun _ => true) (fun _ => false) (fun _ => 0) false
  | .ret i =>
    match s.ws[i]? with
    | some ⟨.call c, none⟩ =>
      match s.pool.running.find? (fun j => j.c == c) with
      | some j =>
        match p.fn (s.pool.ctx c).key j.reason (s.pool.ctx c).loc (s.pool.ctx c).avail with
        | some o => .ret i o
        | none => .spurious i
      | none => .spurious i
    | _ => .spurious i
  | .complete i => .complete i none false (fun _ => false) (fun _ => 0) false
  | .enter i => .enter i
  | .leave i => .leave i
  | .resume i => .resume i false
  | .wake i => .wake i
  | .threads n => .threads n
  | .stop => .stop

/-- Runs actions that pass a check. -/
def exec (p : Fn F L) (ok : State F L → Act → Bool) (s : State F L) : List Act → Option (State F L)
  | [] => some s
  | a :: t =>
    if ok s a then
      match s.step p.graph (a.action p s) with
      | some s' => exec p ok s' t
      | none => none
    else none

theorem Act.legal (p : Fn F L) {s : State F L} (hi : Pool.Inv p.graph s.pool) (a : Act) :
    (a.action p s).legal p.graph s := by
  cases a with
  | scan i => intro k f hx; cases hx
  | full i => intro k f hx; cases hx
  | ret i =>
    unfold Act.action
    simp only
    split
    · next c hw =>
      split
      · next j hj =>
        split
        · next o ho =>
          intro d hd x hx hxd
          rw [hw] at hd
          injection hd with hd
          injection hd with hd
          injection hd with hd
          subst hd
          have h1 : j.c = c := by have := List.find?_some hj; simpa using this
          have : x = j := hi.acc.job_inj hx (List.mem_of_find?_eq_some hj) (hxd.trans h1.symm)
          subst this
          exact p.ok _ _ _ _ _ ho
        · trivial
      · trivial
    · trivial
  | _ => trivial

theorem exec_sched {p : Fn F L} {n : Nat} {P : State F L → Action F L → Prop} {ok : State F L → Act → Bool}
    (hok : ∀ s a, ok s a = true → P s (a.action p s)) : ∀ (l : List Act) (as : List (Action F L)) (s s' : State F L),
    Sched p.graph n P as s → exec p ok s l = some s' → ∃ as', Sched p.graph n P as' s'
  | [], as, s, s', h, e => by injection e with e; subst e; exact ⟨as, h⟩
  | a :: t, as, s, s', h, e => by
    unfold exec at e
    split at e
    · next ha =>
      split at e
      · next s1 hs1 =>
        obtain ⟨⟨bs, hr⟩, _⟩ := run_held h.run
        have hinv := Pool.run_inv hr (move_of_step hs1).1
        exact exec_sched hok t _ s1 s' (h.snoc (a.legal p hinv) (hok s a ha) hs1) e
      · cases e
    · cases e

/-- A schedule from the beginning. -/
theorem exec_from {p : Fn F L} {n : Nat} (hn : 0 < n) {P : State F L → Action F L → Prop} {ok : State F L → Act → Bool}
    (hok : ∀ s a, ok s a = true → P s (a.action p s)) {l : List Act} {s : State F L}
    (h : exec p ok (State.init p.graph n) l = some s) : ∃ as, Sched p.graph n P as s :=
  exec_sched hok l [] _ s (.nil hn) h

def Act.direct : Act → Bool
  | .block _ _ => false
  | _ => true

theorem act_ret (p : Fn F L) (s : State F L) (i : Nat) :
    (∃ o, Act.action p s (.ret i) = .ret i o) ∨ Act.action p s (.ret i) = .spurious i := by
  unfold Act.action
  simp only
  split
  · split
    · split
      · exact .inl ⟨_, rfl⟩
      · exact .inr rfl
    · exact .inr rfl
  · exact .inr rfl

theorem Act.direct_ok (p : Fn F L) (s : State F L) (a : Act) (h : a.direct = true) : Direct s (a.action p s) := by
  cases a with
  | block i k => cases h
  | ret i =>
    rcases act_ret p s i with ⟨o, ho⟩ | ho <;> rw [ho] <;> trivial
  | _ => trivial

/-- Checks for `Calm`. -/
def Act.calm (rank : Nat → Nat) (s : State F L) : Act → Bool
  | .block i k =>
    match s.ws[i]? with
    | some ⟨.call c, none⟩ => decide (rank k.1 < rank (s.pool.ctx c).key.1)
    | _ => false
  | .full _ => false
  | _ => true

theorem Act.calm_ok (p : Fn F L) (rank : Nat → Nat) (s : State F L) (a : Act) (h : a.calm rank s = true) :
    Calm rank s (a.action p s) := by
  cases a with
  | block i k =>
    unfold Act.calm at h
    simp only at h
    split at h
    · next c hw => exact ⟨c, hw, of_decide_eq_true h⟩
    · cases h
  | full i => cases h
  | scan i => rintro ⟨k, hk⟩; cases hk
  | ret i =>
    rcases act_ret p s i with ⟨o, ho⟩ | ho <;> rw [ho] <;> trivial
  | _ => trivial

def Act.limited (m : Nat) : Act → Bool
  | .threads n => decide (n ≤ m)
  | _ => true

theorem Act.limited_ok (p : Fn F L) (m : Nat) (s : State F L) (a : Act) (h : a.limited m = true) :
    Limited m s (a.action p s) := by
  intro k hk
  cases a with
  | threads n =>
    injection hk with hk
    subst hk
    exact of_decide_eq_true h
  | ret i =>
    rcases act_ret p s i with ⟨o, ho⟩ | ho <;> rw [ho] at hk <;> cases hk
  | _ => cases hk

end VS.Work
