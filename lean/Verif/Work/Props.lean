import Verif.Work.Exec

/-!
# The properties of the worker threads
-/

namespace VS.Work

open VS.Pool (Key Graph Outcome Job Answered Event Fn sample)

variable {F L : Type}

/-! ## C85 -/

/-- **C85.** As long as a request is unanswered, some worker thread is at work: inside a filter that does not
wait, or able to take its next step.  No request is left to threads that all sleep. -/
theorem C85_some_thread_works {g : Graph F L} {rank : Nat → Nat} (hg : g.Acyclic rank) {n : Nat}
    {as : List (Action F L)} {s : State F L} (h : Sched g n (Calm rank) as s) (hd : s.pool.dead = none)
    (hs : s.stop = false) {c : Nat} {k : Key} (hr : .request c k ∈ s.pool.trace) (hn : ¬ Told s.pool.trace c) :
    Busy g s := by
  obtain ⟨⟨bs, hrun⟩, hw⟩ := run_held h.run
  have hw := hw hd
  have hi := Pool.run_inv hrun hd
  have he := Pool.run_edge hg hrun hd
  obtain ⟨hl, hb⟩ := sched_live h hd
  obtain ⟨e1, _, e3⟩ := hi.t1.ev _ hr
  refine Classical.byContradiction (fun hx => ?_)
  have hall : AllStuck s := fun w hwm => Classical.byContradiction (fun hst =>
    hx (busy_of hw hd (fun v hv hv1 => by
      cases hvw : v.wait with
      | none => exact absurd hvw hv1
      | some e =>
        obtain ⟨d, h1, _⟩ := hb v hv e hvw
        exact ⟨d, h1⟩) hwm hst))
  exact hn (stuck_answered hw hi he hb hs hall (hl hs hall) c e1 e3)

/-- **C85.** The same for programs in which no worker thread calls `getFrame`, whatever the memory limit
refuses. -/
theorem C85_without_blocking {g : Graph F L} {rank : Nat → Nat} (hg : g.Acyclic rank) {n : Nat}
    {as : List (Action F L)} {s : State F L} (h : Sched g n Direct as s) (hd : s.pool.dead = none)
    (hs : s.stop = false) {c : Nat} {k : Key} (hr : .request c k ∈ s.pool.trace) (hn : ¬ Told s.pool.trace c) :
    Busy g s :=
  C85_some_thread_works hg (direct_calm rank h).1 hd hs hr hn

/-! ## C86 -/

/-- **C86.** There are never more threads than were allowed at most, plus one for every call of `getFrame` by a
worker thread. -/
theorem C86_threads_bounded {g : Graph F L} {n m : Nat} (hn : n ≤ m) {as : List (Action F L)} {s : State F L}
    (h : Sched g n (Limited m) as s) (hd : s.pool.dead = none) : s.alive ≤ m + as.countP Action.isBlock := by
  have h1 := ((run_held h.run).2 hd).alive
  have h2 := (sched_few hn h).tot
  omega

/-- **C86.** If no worker thread calls `getFrame`, then at most as many filters run at the same time as
threads were allowed. -/
theorem C86_calls_bounded {g : Graph F L} {n m : Nat} (hn : n ≤ m) {as : List (Action F L)} {s : State F L}
    (h : Sched g n (Limited m) as s) (hb : ∀ a ∈ as, a.isBlock = false) (hd : s.pool.dead = none) :
    s.pool.running.length ≤ m ∧ s.calls = s.pool.running.length := by
  have h1 := C86_threads_bounded hn h hd
  have h0 : as.countP Action.isBlock = 0 := by
    rw [List.countP_eq_zero]
    intro a ha
    rw [hb a ha]; simp
  have h2 : s.calls ≤ s.alive := by
    unfold State.calls State.alive
    refine List.countP_mono_left (fun w _ hx => ?_)
    obtain ⟨a, b⟩ := w
    cases a <;> simp_all
  have h3 : s.calls = s.pool.running.length := by
    have := ((run_held h.run).2 hd).run.length_eq
    rw [List.length_map] at this
    rw [← this]
    unfold State.calls
    clear this
    induction s.ws with
    | nil => rfl
    | cons w t ih =>
      rw [List.countP_cons, List.filterMap_cons, ih]
      obtain ⟨a, b⟩ := w
      cases a <;> simp [Worker.callOf]
  omega

/-- **C86.** The counts of threads kept by the pool are those of the threads there are, and never below 0. -/
theorem C86_counts {g : Graph F L} {n : Nat} {as : List (Action F L)} {s : State F L} (h : Run g n as s)
    (hd : s.pool.dead = none) : 0 ≤ s.active ∧ 0 ≤ s.idle ∧
      s.idle = s.ws.countP (fun w => w.place == .sleep || w.place == .woken) := by
  have hw := (run_held h).2 hd
  have h1 := hw.idl
  have h2 : s.ws.countP Worker.rests = s.ws.countP (fun w => w.place == .sleep || w.place == .woken) := by
    refine List.countP_congr (fun w _ => ?_)
    obtain ⟨a, b⟩ := w
    cases a <;> simp [Worker.rests]
  exact ⟨hw.nonneg, by omega, by rw [h1, h2]⟩

/-! ## C87 -/

/-- **C87.** The callbacks given to `getFrameAsync` never run at the same time, in however many threads. -/
theorem C87_callbacks_apart {g : Graph F L} {n : Nat} {as : List (Action F L)} {s : State F L} (h : Run g n as s)
    (hd : s.pool.dead = none) : s.callbacks ≤ 1 := by
  have hw := ((run_held h).2 hd).cb
  have : s.callbacks = s.ws.countP (Worker.inCb s.async) := rfl
  rw [this, hw]
  cases s.cbLock <;> decide

/-- **C87.** What the threads do to the requests is a schedule of the scheduler, so that everything said about
those holds for any number of threads. -/
theorem C87_threads_follow_the_scheduler {g : Graph F L} {n : Nat} {as : List (Action F L)} {s : State F L}
    (h : Run g n as s) : ∃ bs, Pool.Run g bs s.pool :=
  (run_held h).1

/-! ## C88 -/

/-- **C88.** When the pool is destroyed no thread sleeps on, and as long as none waits in `getFrame` and one
has not ended, some thread is at work. -/
theorem C88_threads_end {g : Graph F L} {n : Nat} {as : List (Action F L)} {s : State F L} (h : Run g n as s)
    (hd : s.pool.dead = none) (hs : s.stop = true) (hb : ∀ w ∈ s.ws, w.wait = none) :
    (∀ w ∈ s.ws, w.place ≠ .sleep) ∧ (s.alive = 0 ∨ Busy g s) := by
  have hw := (run_held h).2 hd
  refine ⟨hw.stp hs, ?_⟩
  by_cases hx : ∃ w ∈ s.ws, w.place ≠ .gone
  · obtain ⟨w, hwm, hw1⟩ := hx
    refine .inr (busy_of hw hd (fun v hv hv1 => absurd (hb v hv) hv1) hwm ?_)
    rintro (h1 | h1 | ⟨c, h1, _⟩)
    · exact hw.stp hs w hwm h1
    · exact hw1 h1
    · rw [hb w hwm] at h1; cases h1
  · refine .inl (List.countP_eq_zero.2 (fun w hwm => ?_))
    have : w.place = .gone := Classical.byContradiction (fun h1 => hx ⟨w, hwm, h1⟩)
    rw [this]; decide

/-- **C88.** When all threads have ended both counts are 0, as the destructor asserts, and nothing runs. -/
theorem C88_counts_at_the_end {g : Graph F L} {n : Nat} {as : List (Action F L)} {s : State F L} (h : Run g n as s)
    (hd : s.pool.dead = none) (ha : s.alive = 0) :
    s.active = 0 ∧ s.idle = 0 ∧ s.pool.running = [] ∧ s.pool.finished = [] ∧ s.pool.returning = [] := by
  have hw := (run_held h).2 hd
  have hgone : ∀ w ∈ s.ws, w.place = .gone := by
    intro w hwm
    have := List.countP_eq_zero.1 ha w hwm
    simpa using this
  have hstuck : AllStuck s := fun w hwm => .inr (.inl (hgone w hwm))
  have hz : ∀ f : Worker → Option Nat, (∀ b, f ⟨.gone, b⟩ = none) → s.ws.filterMap f = [] := by
    intro f hf
    refine List.filterMap_eq_nil_iff.2 (fun w hwm => ?_)
    have := hgone w hwm
    obtain ⟨a, b⟩ := w
    simp only at this
    rw [this]; exact hf b
  have h1 := hw.run
  have h2 := hw.fin
  have h3 := hw.ret
  rw [hz _ (fun _ => rfl)] at h1 h2 h3
  have hidle := hw.idl
  have htot := hw.alive
  rw [ha] at htot
  unfold State.total at htot
  have hact := hw.stuck_active hstuck
  have hidle0 : (0 : Int) ≤ s.idle := by omega
  refine ⟨hact, by omega, List.map_eq_nil_iff.1 h1.nil_eq.symm, List.map_eq_nil_iff.1 h2.nil_eq.symm,
    List.map_eq_nil_iff.1 h3.nil_eq.symm⟩

end VS.Work
