import Verif.Pool.Term2
import Verif.Pool.PropsDet

/-!
# C18, second half: everything comes to an end, and the end is that all requests are answered

For filters that are functions of their inputs (`Program`), in a graph without cycles, that keep to the
rules whose violation ends the process (`Program.Fine`): they never ask for nothing, for frames of an empty
clip or for negative frame numbers.  Requests and requests to flush may arrive at any time.
-/

namespace VS.Pool

variable {F : Type}

/-- What an action from outside may cause: the steps for the frame asked for, or for the error. -/
def Action.cost (P : Program F) (rank : Nat → Nat) : Action F (Kept F) → Nat
  | .request k _ => if 0 ≤ k.2 ∧ k.2 < P.numFrames k.1 then P.weight rank k else 10
  | .setFlush => 1
  | _ => 0

/-- **C18.** The process is never ended by the scheduler. -/
theorem C18_never_fatal {P : Program F} {rank : Nat → Nat} (hP : P.Acyclic rank) (hF : P.Fine)
    {as : List (Action F (Kept F))} {s : State F (Kept F)} (h : Run (P.graph rank) as s) : s.dead = none :=
  (run_good hP hF h).1

theorem run_work {P : Program F} {rank : Nat → Nat} (hP : P.Acyclic rank) (hF : P.Fine)
    {as : List (Action F (Kept F))} {s : State F (Kept F)} (h : Run (P.graph rank) as s) :
    (as.filter Action.work).length + work P rank s ≤ (as.map (Action.cost P rank)).sum := by
  induction h with
  | nil => exact Nat.le_refl 0
  | @snoc as s s' a h1 h2 h3 ih =>
    have hd0 := (run_good hP hF h1).1
    have hd := (run_good hP hF (.snoc h1 h2 h3)).1
    have hi := run_inv h1 hd0
    have hi' := run_inv (.snoc h1 h2 h3) hd
    have e := eff_of_step hi.acc h3 hd
    rw [List.filter_append, List.length_append, List.map_append, List.sum_append]
    cases hw : a.work with
    | true =>
      have := work_step hP hi hi' h2 (run_det hP h1 hd0) e hw
      have h4 : ([a].filter Action.work).length = 1 := by simp [hw]
      omega
    | false =>
      have h4 : ([a].filter Action.work).length = 0 := by simp [hw]
      have h5 : ([a].map (Action.cost P rank)).sum = a.cost P rank := by simp
      have : work P rank s' ≤ work P rank s + a.cost P rank := by
        cases e with
        | request k reserve e =>
          unfold work
          have hold : ∀ x < s.next, pot P rank s' x = pot P rank s x := by
            intro x hx
            have hne : x ≠ s.next := Nat.ne_of_lt hx
            have e0 := e.other x hne
            refine pot_congr hi.acc hi'.acc ?_ (fun j _ => by rw [e.running]) (fun p _ => by rw [e.finished])
              (by rw [e.returning]) (by rw [e0]) (by rw [e0]) (by rw [e0]) (by rw [e0]) (fun _ => by rw [e0])
            unfold Queued
            rw [e0]
            rcases e.tasks with ⟨_, _, t1, t2⟩ | ⟨_, t1, t2⟩
            · rw [t1, t2]; simp [hne]
            · rw [t1, t2]; simp [hne]
          have hnew : pot P rank s' s.next = (Action.request (F := F) k reserve).cost P rank := by
            rw [pot_queued]
            · unfold queW Action.cost
              rw [e.self]
              unfold Ctx.ext Graph.requestError
              simp only [if_true]
              show (if (if k.2 < 0 ∨ k.2 ≥ P.numFrames k.1 then _ else none : Option String).isSome = true then _ else _) = _
              by_cases hv : 0 ≤ k.2 ∧ k.2 < P.numFrames k.1
              · rw [if_pos hv, if_neg (show ¬ (k.2 < 0 ∨ k.2 ≥ P.numFrames k.1) by omega)]
                rfl
              · rw [if_neg hv, if_pos (show (k.2 < 0 ∨ k.2 ≥ P.numFrames k.1) by omega)]
                rfl
            · rcases e.tasks with ⟨_, _, t1, t2⟩ | ⟨_, t1, t2⟩
              · exact .inr (.inl (by rw [t1]; simp))
              · exact .inl (by rw [t2]; simp)
          rw [e.next, e.flush]
          show sumTo _ s.next + pot P rank s' s.next + _ ≤ _
          rw [sumTo_congr hold, hnew]
          omega
        | setFlush e =>
          subst e
          show sumTo (pot P rank s) s.next + 1 ≤ sumTo (pot P rank s) s.next + _ + 1
          omega
        | hit => cases hw
        | call => cases hw
        | swap => cases hw
        | ret => cases hw
        | done => cases hw
        | wait => cases hw
        | callback => cases hw
      omega

/-- **C18.** The number of steps a schedule can have is bounded by what is asked of it: a number that depends
only on the frames requested and the number of requests to flush. -/
theorem C18_bounded {P : Program F} {rank : Nat → Nat} (hP : P.Acyclic rank) (hF : P.Fine)
    {as : List (Action F (Kept F))} {s : State F (Kept F)} (h : Run (P.graph rank) as s) :
    (as.filter Action.work).length ≤ (as.map (Action.cost P rank)).sum := by
  have := run_work hP hF h
  omega

theorem find_job {s : State F (Kept F)} {j : Job} (hj : j ∈ s.running) :
    ∃ i, s.running.find? (fun p => p.c == j.c) = some i := by
  cases hf : s.running.find? (fun p => p.c == j.c) with
  | none => exact absurd (List.find?_eq_none.1 hf j hj) (by simp)
  | some i => exact ⟨i, rfl⟩

/-- Whatever a filter was called for, it has something to do. -/
theorem job_outcome {P : Program F} {rank : Nat → Nat} {s : State F (Kept F)} (hd : Det P rank s) (hg : Good P s)
    {j : Job} (hj : j ∈ s.running) :
    ∃ o, (P.graph rank).filter (s.ctx j.c).key j.reason (s.ctx j.c).loc (s.ctx j.c).avail o := by
  cases hr : j.reason with
  | initial => exact ⟨(P.prog (s.ctx j.c).key).out, (fun a ha => by rw [Prog.out_caches] at ha; cases ha), Prog.out_does _⟩
  | ready =>
    obtain ⟨ks, next, ha, hn⟩ := hd.run j hj hr
    obtain ⟨_, b2⟩ := hg.run j hj hr ks next ha.loc
    have hc : ∃ fs, collect (fun q => (s.ctx j.c).avail.lookup (if P.numFrames q.1 ≠ 0 ∧ q.2 ≥ P.numFrames q.1
          then (q.1, P.numFrames q.1 - 1) else q)) ks = some fs := by
      refine collect_some ?_
      intro q hq
      have hnn := hn q hq
      have : (if P.numFrames q.1 ≠ 0 ∧ q.2 ≥ P.numFrames q.1 then (q.1, P.numFrames q.1 - 1) else q) = P.last q := by
        unfold Program.last at hnn ⊢
        by_cases hcc : q.2 ≥ P.numFrames q.1
        · rw [if_pos hcc] at hnn ⊢
          simp only at hnn
          rw [if_pos ⟨by omega, hcc⟩]
        · rw [if_neg hcc, if_neg (fun hx => hcc hx.2)]
      rw [this]
      obtain ⟨f, hf⟩ := b2 q hq
      obtain ⟨f', hf'⟩ := lookup_of_mem hf
      rw [hf'.1]; rfl
    obtain ⟨fs, hfs⟩ := hc
    exact ⟨(next fs).out, (fun a ha => by rw [Prog.out_caches] at ha; cases ha), ks, next, fs, ha.loc, hfs, Prog.out_does _⟩
  | error => exact ⟨Outcome.mk [] [] [] none none none, (fun a ha => nomatch ha), rfl, rfl⟩

/-- **C18.** As long as a request is unanswered the scheduler can take a step: none of the filters that run
is without an answer, and if none runs a worker has something to finish or finds something to start. -/
theorem C18_progress {P : Program F} {rank : Nat → Nat} (hP : P.Acyclic rank) (hF : P.Fine)
    {as : List (Action F (Kept F))} {s : State F (Kept F)} (h : Run (P.graph rank) as s) {c : Nat} {k : Key}
    (hr : .request c k ∈ s.trace) (hn : ∀ r, .callback c k r ∉ s.trace) :
    ∃ (a : Action F (Kept F)) (s' : State F (Kept F)), a.work = true ∧ Run (P.graph rank) (as ++ [a]) s' := by
  obtain ⟨hd, hg⟩ := run_good hP hF h
  have hdet := run_det hP h hd
  rcases C18_no_deadlock (Program.graph_acyclic hP) h hd hr hn with h1 | ⟨c', s', h1⟩ | ⟨c', s', h1⟩ | h1
  · cases hl : s.running with
    | nil => exact absurd hl h1
    | cons j t =>
      have hj : j ∈ s.running := by rw [hl]; exact List.mem_cons_self ..
      obtain ⟨o, ho⟩ := job_outcome hdet hg hj
      obtain ⟨i, hi⟩ := find_job hj
      refine ⟨.ret j.c o, s.ret (P.graph rank) j.c i.serial o, rfl, .snoc h ?_ ?_⟩
      · intro i hi' e
        rw [(run_inv h hd).acc.job_inj hi' hj e]
        exact ho
      · unfold State.step
        rw [hd]
        simp [hi]
  · exact ⟨.complete c', s', rfl, .snoc h trivial h1⟩
  · exact ⟨.callback c', s', rfl, .snoc h trivial h1⟩
  · obtain ⟨s', h2⟩ := h1 (fun _ => none) (fun _ => false)
    refine ⟨.start (fun _ => none) (fun _ => false), s', rfl, .snoc h ?_ h2⟩
    intro k f hx
    cases hx

/-- **C18.** A schedule that the scheduler cannot continue has answered every request. -/
theorem C18_end_means_answered {P : Program F} {rank : Nat → Nat} (hP : P.Acyclic rank) (hF : P.Fine)
    {as : List (Action F (Kept F))} {s : State F (Kept F)} (h : Run (P.graph rank) as s)
    (hend : ∀ a s', a.work = true → ¬ Run (P.graph rank) (as ++ [a]) s') {c : Nat} {k : Key}
    (hr : .request c k ∈ s.trace) : ∃ r, .callback c k r ∈ s.trace := by
  refine Classical.byContradiction (fun hn => ?_)
  obtain ⟨a, s', h1, h2⟩ := C18_progress hP hF h hr (fun r hx => hn ⟨r, hx⟩)
  exact hend a s' h1 h2

/-- **C18.** Without further requests every schedule that goes on for long enough answers every request: after
`as`, any continuation by steps of the scheduler has a limited number of them, and one that cannot be made
longer leaves no request without answer. -/
theorem C18_eventually_answered {P : Program F} {rank : Nat → Nat} (hP : P.Acyclic rank) (hF : P.Fine)
    (as : List (Action F (Kept F))) :
    ∃ n, ∀ bs s', bs.all Action.work = true → Run (P.graph rank) (as ++ bs) s' → bs.length ≤ n ∧
      ((∀ b s'', b.work = true → ¬ Run (P.graph rank) (as ++ bs ++ [b]) s'') →
        ∀ c k, .request c k ∈ s'.trace → ∃ r, .callback c k r ∈ s'.trace) := by
  refine ⟨(as.map (Action.cost P rank)).sum, fun bs s' hb h' => ⟨?_, fun hend c k hr => ?_⟩⟩
  · have h1 := C18_bounded hP hF h'
    have h2 : (bs.map (Action.cost P rank)).sum = 0 := by
      clear h1 h'
      induction bs with
      | nil => rfl
      | cons b t ih =>
        simp only [List.all_cons, Bool.and_eq_true] at hb
        rw [List.map_cons, List.sum_cons, ih hb.2]
        cases b <;> first | rfl | cases hb.1
    rw [List.filter_append, List.length_append, List.map_append, List.sum_append, h2] at h1
    have h3 : bs.filter Action.work = bs := List.filter_eq_self.2 (by simpa using hb)
    rw [h3] at h1
    omega
  · exact C18_end_means_answered hP hF h' hend hr

theorem run_fun {g : Graph F (Kept F)} {as : List (Action F (Kept F))} {s s' : State F (Kept F)} (h : Run g as s)
    (h' : Run g as s') : s = s' := by
  induction h generalizing s' with
  | nil =>
    generalize hm : ([] : List (Action F (Kept F))) = m at h'
    cases h' with
    | nil => rfl
    | snoc => simp at hm
  | @snoc as s s1 a h1 h2 h3 ih =>
    generalize hm : as ++ [a] = m at h'
    cases h' with
    | nil => simp at hm
    | @snoc as2 s2 _ b q1 q2 q3 =>
      obtain ⟨e1, e2⟩ := List.append_inj' hm rfl
      injection e2 with e2 _
      subst e1; subst e2
      rw [ih q1, q3] at h3
      injection h3 with h3
      exact h3.symm

/-- **C18.** There is such a continuation. -/
theorem C18_completable {P : Program F} {rank : Nat → Nat} (hP : P.Acyclic rank) (hF : P.Fine)
    {as : List (Action F (Kept F))} {s : State F (Kept F)} (h : Run (P.graph rank) as s) :
    ∃ bs s', bs.all Action.work = true ∧ Run (P.graph rank) (as ++ bs) s' ∧
      ∀ c k, .request c k ∈ s'.trace → ∃ r, .callback c k r ∈ s'.trace := by
  obtain ⟨n, hn⟩ : ∃ n, n = work P rank s := ⟨_, rfl⟩
  induction n using Nat.strongRecOn generalizing as s with
  | ind n ih =>
    by_cases hx : ∃ (a : Action F (Kept F)) (s' : State F (Kept F)), a.work = true ∧ Run (P.graph rank) (as ++ [a]) s'
    · obtain ⟨a, s', h1, h2⟩ := hx
      have hlt : work P rank s' < work P rank s := by
        obtain ⟨hd', _⟩ := run_good hP hF h2
        generalize hm : as ++ [a] = m at h2
        cases h2 with
        | nil => simp at hm
        | @snoc as2 s2 _ b q1 q2 q3 =>
          obtain ⟨e1, e2⟩ := List.append_inj' hm rfl
          injection e2 with e2 _
          subst e1; subst e2
          have hd2 := (run_good hP hF q1).1
          have := work_step hP (run_inv q1 hd2) (run_inv (.snoc q1 q2 q3) hd') q2 (run_det hP q1 hd2)
            (eff_of_step (run_inv q1 hd2).acc q3 hd') h1
          rwa [run_fun h q1]
      obtain ⟨bs, s'', g1, g2, g3⟩ := ih _ (hn ▸ hlt) h2 rfl
      exact ⟨a :: bs, s'', by simp [h1, g1], by simpa using g2, g3⟩
    · refine ⟨[], s, rfl, by simpa using h, fun c k hr => ?_⟩
      exact C18_end_means_answered hP hF h (fun a s' h1 h2 => hx ⟨a, s', h1, h2⟩) hr

theorem adder_fine : adder.Fine := by
  intro k hk
  unfold adder
  simp only
  split
  · split
    · exact .fail
    · exact .done
  · split
    · refine .ask (by simp) ?_ (fun _ => .done)
      intro q hq
      simp only [List.mem_cons, List.not_mem_nil, or_false] at hq
      rcases hq with rfl | rfl
      · unfold Program.last; split <;> simp <;> omega
      · unfold Program.last; split <;> simp <;> omega
    · exact .fail

/-- The bound for three requests and a flush, whatever the schedule. -/
example {as : List (Action Nat (Kept Nat))} {s : State Nat (Kept Nat)}
    (h : Run (adder.graph id) (.request (1, 0) false :: .request (1, 2) false :: .setFlush :: .request (1, 7) true :: as) s)
    (hw : as.all Action.work = true) : as.length ≤ 91 := by
  have h1 := C18_bounded adder_acyclic adder_fine h
  have h2 : (as.map (Action.cost adder id)).sum = 0 := by
    clear h1 h
    induction as with
    | nil => rfl
    | cons b t ih =>
      simp only [List.all_cons, Bool.and_eq_true] at hw
      rw [List.map_cons, List.sum_cons, ih hw.2]
      cases b <;> first | rfl | cases hw.1
  have h3 : as.filter Action.work = as := List.filter_eq_self.2 (by simpa using hw)
  have h4 : Action.cost adder id (.request (1, 0) false) = 40 ∧ Action.cost adder id (.request (1, 2) false) = 40 ∧
      Action.cost adder id (.request (1, 7) true) = 10 := by decide +kernel
  simp only [List.map_cons, List.sum_cons, h2, h4.1, h4.2.1, h4.2.2] at h1
  have h5 : Action.cost adder id .setFlush = 1 := rfl
  rw [h5] at h1
  have : (Action.request (1, 0) false :: .request (1, 2) false :: .setFlush :: .request (1, 7) true :: as).filter
      Action.work = as.filter Action.work := rfl
  rw [this, h3] at h1
  omega

end VS.Pool
