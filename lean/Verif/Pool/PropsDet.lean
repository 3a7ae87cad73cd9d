import Verif.Pool.Det
import Verif.Pool.Props

/-!
# C14: what is delivered does not depend on the schedule

`P` is a graph of filters each of which is a function of its inputs (`Verif.Pool.Prog`).  `P.eval rank k` is
the frame `k` computed recursively, without scheduler, caches or threads.
-/

namespace VS.Pool

variable {F : Type}

/-- **C14.** The equation of recursive evaluation: carry out the tree of the frame, asking for the frames of
other nodes in the same way; requests beyond the end of a clip are for its last frame. -/
theorem C14_eval_equation {P : Program F} {rank : Nat → Nat} (hP : P.Acyclic rank) (k : Key) :
    P.eval rank k = (P.prog k).eval (fun q => P.eval rank (P.last q)) := Program.eval_eq hP k

/-- **C14.** Whatever the schedule, the flushing and the answers of the caches: the callback of a request
for a frame number of the clip receives the frame that recursive evaluation gives, or an error if that fails;
for any other number it receives an error. -/
theorem C14_result_independent_of_schedule {P : Program F} {rank : Nat → Nat} (hP : P.Acyclic rank)
    {as : List (Action F (Kept F))} {s : State F (Kept F)} (h : Run (P.graph rank) as s) {c : Nat} {k : Key}
    {r : Except String F} (hc : .callback c k r ∈ s.trace) :
    match (if 0 ≤ k.2 ∧ k.2 < P.numFrames k.1 then P.eval rank k else none) with
    | some f => r = .ok f
    | none => ∃ m, r = .error m := by
  obtain ⟨as0, s0, h0, hd, _, htr⟩ := run_before h
  have hi := run_inv h0 hd
  have hdet := run_det hP h0 hd
  have hc := lift_mem htr (by simp) hc
  have hf := hi.t1.cb c k r hc
  obtain ⟨e1, e2, e3⟩ := hi.t1.ev _ hc
  have hov := hi.t1.over c k r hf
  have herr : (s0.ctx c).error = errOf r := hov.2.2.2.2.2.2
  by_cases hv : 0 ≤ k.2 ∧ k.2 < P.numFrames k.1
  · rw [if_pos hv]
    cases r with
    | ok f => rw [hdet.ok c k f hf]
    | error m =>
      rcases hdet.err c m herr with h1 | ⟨_, h1⟩
      · rw [e2] at h1
        rw [h1]
        exact ⟨m, rfl⟩
      · rw [e2] at h1
        exact absurd hv h1
  · rw [if_neg hv]
    have := hdet.ext c e3 (by rw [e2]; exact hv)
    rw [herr] at this
    cases r with
    | ok f => cases this
    | error m => exact ⟨m, rfl⟩

/-- **C14.** Two schedules deliver the same frame for the same request, or both an error. -/
theorem C14_same_in_all_schedules {P : Program F} {rank : Nat → Nat} (hP : P.Acyclic rank)
    {as as' : List (Action F (Kept F))} {s s' : State F (Kept F)} (h : Run (P.graph rank) as s)
    (h' : Run (P.graph rank) as' s') {c c' : Nat} {k : Key} {r r' : Except String F}
    (hc : .callback c k r ∈ s.trace) (hc' : .callback c' k r' ∈ s'.trace) : r.toOption = r'.toOption := by
  have h1 := C14_result_independent_of_schedule hP h hc
  have h2 := C14_result_independent_of_schedule hP h' hc'
  generalize (if 0 ≤ k.2 ∧ k.2 < P.numFrames k.1 then P.eval rank k else none) = x at h1 h2
  cases x with
  | some f => simp only at h1 h2; rw [h1, h2]
  | none =>
    obtain ⟨m, rfl⟩ := h1
    obtain ⟨m', rfl⟩ := h2
    rfl

/-- **C14.** Everything the filters make and everything they get is what recursive evaluation gives. -/
theorem C14_intermediate_frames {P : Program F} {rank : Nat → Nat} (hP : P.Acyclic rank)
    {as : List (Action F (Kept F))} {s : State F (Kept F)} (h : Run (P.graph rank) as s) {c : Nat} {k : Key} {f : F}
    (hc : .finish c k (.ok f) ∈ s.trace) : P.eval rank k = some f := by
  obtain ⟨as0, s0, h0, hd, _, htr⟩ := run_before h
  exact (run_det hP h0 hd).ok c k f (lift_mem htr (by simp) hc)

/-- Node 0 makes frames except number 3; node 1 adds two frames of node 0, the second beyond the end for the
last frame. -/
def adder : Program Nat where
  numFrames n := if n = 0 then 5 else 3
  mode n := if n = 0 then .frameState else .parallelRequests
  prog k :=
    if k.1 = 0 then (if k.2 = 3 then .fail "no frame" else .done (k.2.toNat + 10))
    else if k.1 = 1 then .ask [(0, 2 * k.2), (0, 2 * k.2 + 1)] fun fs => .done fs.sum
    else .fail "no such node"

theorem adder_acyclic : adder.Acyclic id := by
  intro k
  unfold adder
  simp only
  split
  · split
    · exact .fail
    · exact .done
  · split
    · next h =>
      refine .ask ?_ (fun _ => .done)
      intro q hq
      simp only [List.mem_cons, List.not_mem_nil, or_false] at hq
      rcases hq with rfl | rfl <;> simp [h]
    · exact .fail

example : adder.eval id (1, 0) = some 21 ∧ adder.eval id (1, 1) = none ∧ adder.eval id (1, 2) = some 28 := by
  decide +kernel

/-- What a filter given by a tree does in a call. -/
def Prog.out : Prog F → Outcome F (Kept F)
  | .done f => Outcome.mk [] [] [] none (some f) none
  | .fail m => Outcome.mk [] [] [] (some m) none none
  | .ask ks next => Outcome.mk ks [] [] none none (some (ks, next))

theorem Prog.out_does (p : Prog F) : p.does p.out := by
  cases p <;> simp [Prog.does, Prog.out]

theorem Prog.out_caches (p : Prog F) : p.out.caches = [] := by cases p <;> rfl

/-- A program, computed. -/
def Program.toFn (P : Program F) (rank : Nat → Nat) : Fn F (Kept F) where
  graph := P.graph rank
  fn k r l av :=
    match r, l with
    | .initial, _ => some (P.prog k).out
    | .ready, some (ks, next) =>
      (collect (fun q => av.lookup (if P.numFrames q.1 ≠ 0 ∧ q.2 ≥ P.numFrames q.1
          then (q.1, P.numFrames q.1 - 1) else q)) ks).map fun fs => (next fs).out
    | .ready, none => none
    | .error, _ => some (Outcome.mk [] [] [] none none none)
  ok := by
    intro k r l av o h
    split at h
    · injection h with h
      subst h
      exact ⟨(fun a ha => by rw [Prog.out_caches] at ha; cases ha), Prog.out_does _⟩
    · next ks next =>
      rw [Option.map_eq_some_iff] at h
      obtain ⟨fs, h1, h2⟩ := h
      subst h2
      exact ⟨(fun a ha => by rw [Prog.out_caches] at ha; cases ha), ks, next, fs, rfl, h1, Prog.out_does _⟩
    · cases h
    · injection h with h
      subst h
      exact ⟨(fun a ha => nomatch ha), rfl, rfl⟩

/-- A schedule with three requests; the frame 2 of node 1 asks for a frame beyond the end. -/
example : ∃ as s, Run (adder.graph id) as s ∧ .callback 0 (1, 0) (.ok 21) ∈ s.trace ∧
    .callback 1 (1, 2) (.ok 28) ∈ s.trace ∧ .callback 2 (1, 1) (.error "no frame") ∈ s.trace := by
  have h : (traceOf (adder.toFn id) [.request (1, 0), .request (1, 2), .request (1, 1), .start, .start, .start,
      .ret 0, .ret 1, .ret 2, .complete 0, .complete 1, .complete 2, .start, .ret 3, .complete 3,
      .start, .ret 4, .complete 4, .start, .ret 0, .complete 0, .callback 0,
      .start, .ret 5, .complete 5, .start, .ret 1, .complete 1,
      .start, .ret 6, .complete 6, .start, .ret 7, .complete 7, .start, .ret 2, .complete 2, .callback 2, .callback 1]).any
      (fun t => decide (.callback 0 (1, 0) (.ok 21) ∈ t ∧ .callback 1 (1, 2) (.ok 28) ∈ t ∧
        .callback 2 (1, 1) (.error "no frame") ∈ t)) = true := by decide +kernel
  revert h
  generalize hl : ([.request (1, 0), _, _, _, _, _, _, _, _, _, _, _, _, _, _, _, _, _, _, _, _, _, _, _, _, _, _, _,
    _, _, _, _, _, _, _, _, _, _, _] : List Act) = l
  intro h
  cases ht : traceOf (adder.toFn id) l with
  | none => rw [ht] at h; cases h
  | some t =>
    obtain ⟨as, s, h1, h2⟩ := traceOf_run ht
    rw [ht] at h
    exact ⟨as, s, h1, by rw [h2]; simpa using h⟩

end VS.Pool
