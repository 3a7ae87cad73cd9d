import Verif.Pool.Progress
import Verif.Pool.Exec

/-!
# C13, C15, C16, C17 and the safety half of C18: requests, errors, activation, exclusion, deadlock

`Run g as s` says that `s` is a state some schedule of the graph `g` leads to, and `s.trace` what has
happened on the way.  The filters of `g` are arbitrary.  A schedule that ended in a fatal error
(`s.dead ≠ none`) is included unless excluded.
-/

namespace VS.Pool

variable {F L : Type}

theorem lift_split {t0 t : List (Event F)}
    (h : t = t0 ∨ ∃ c k q er f, t = t0 ++ [.ret c k q er f]) {t1 t2 : List (Event F)} {x : Event F}
    (hx : ∀ c k q er f, x ≠ .ret c k q er f) (hs : t = t1 ++ x :: t2) :
    ∃ w, t0 = t1 ++ x :: w ∧ ∀ y, (∀ c k q er f, y ≠ .ret c k q er f) → y ∈ t2 → y ∈ w := by
  rcases h with rfl | ⟨c, k, q, er, f, rfl⟩
  · exact ⟨t2, hs, fun _ _ h => h⟩
  · rcases split_one hs with ⟨w, h1, h2⟩ | ⟨h1, _, _⟩
    · refine ⟨w, h1, fun y hy hm => ?_⟩
      rw [h2] at hm
      rcases List.mem_append.1 hm with hm | hm
      · exact hm
      · exact absurd (List.mem_singleton.1 hm) (hy _ _ _ _ _)
    · exact absurd h1 (hx _ _ _ _ _)

theorem lift_mem {t0 t : List (Event F)}
    (h : t = t0 ∨ ∃ c k q er f, t = t0 ++ [.ret c k q er f]) {x : Event F}
    (hx : ∀ c k q er f, x ≠ .ret c k q er f) (hs : x ∈ t) : x ∈ t0 := by
  rcases h with rfl | ⟨c, k, q, er, f, rfl⟩
  · exact hs
  · rcases List.mem_append.1 hs with hm | hm
    · exact hm
    · exact absurd (List.mem_singleton.1 hm) (hx _ _ _ _ _)

theorem lift_sub {t0 t : List (Event F)}
    (h : t = t0 ∨ ∃ c k q er f, t = t0 ++ [.ret c k q er f]) {x : Event F} (hs : x ∈ t0) : x ∈ t := by
  rcases h with rfl | ⟨c, k, q, er, f, rfl⟩
  · exact hs
  · exact List.mem_append_left _ hs

/-! ## C13 -/

/-- **C13.** Every callback answers a request made before, for the same frame of the same node, and neither
before nor after it there is another callback for that request. -/
theorem C13_callback_answers_request {g : Graph F L} {as : List (Action F L)} {s : State F L} (h : Run g as s)
    {t1 t2 : List (Event F)} {c : Nat} {k : Key} {r : Except String F}
    (hs : s.trace = t1 ++ .callback c k r :: t2) :
    .request c k ∈ t1 ∧ (∀ k', .request c k' ∈ s.trace → k' = k) ∧
    (∀ k' r', .callback c k' r' ∉ t1) ∧ ∀ k' r', .callback c k' r' ∉ t2 := by
  obtain ⟨s0, hi, _, htr⟩ := run_alive h
  obtain ⟨w, h1, h2⟩ := lift_split htr (by simp) hs
  have ho := hi.t1.cbOnce
  rw [h1] at ho
  have hsp := ho.split (c := c) rfl
  refine ⟨(hi.t4.cbs _ _ _ _ _ h1).1, fun k' hk' => ?_, fun k' r' hx => hsp.1 _ hx rfl, fun k' r' hx => ?_⟩
  · have e1 := hi.t1.ev _ (lift_mem htr (by simp) hk')
    have e2 := hi.t1.ev _ (by rw [h1]; exact List.mem_append_right _ (List.mem_cons_self ..) :
      .callback c k r ∈ s0.trace)
    exact e1.2.1.symm.trans e2.2.1
  · exact hsp.2 _ (h2 _ (by simp) hx) rfl

/-- **C13.** Different calls of `getFrameAsync` are different requests. -/
theorem C13_requests_distinct {g : Graph F L} {as : List (Action F L)} {s : State F L} (h : Run g as s)
    {t1 t2 : List (Event F)} {c : Nat} {k k' : Key} (hs : s.trace = t1 ++ .request c k :: t2) :
    .request c k' ∉ t1 ∧ .request c k' ∉ t2 := by
  obtain ⟨s0, hi, _, htr⟩ := run_alive h
  obtain ⟨w, h1, h2⟩ := lift_split htr (by simp) hs
  have ho := hi.t1.reqOnce
  rw [h1] at ho
  have hsp := ho.split (c := c) rfl
  exact ⟨fun hx => hsp.1 _ hx rfl, fun hx => hsp.2 _ (h2 _ (by simp) hx) rfl⟩

/-- **C13.** When the scheduler has no more work every request has had its callback. -/
theorem C13_all_answered {g : Graph F L} {rank : Nat → Nat} (hg : g.Acyclic rank) {as : List (Action F L)}
    {s : State F L} (h : Run g as s) (hd : s.dead = none) (hq : s.quiet) {c : Nat} {k : Key}
    (hr : .request c k ∈ s.trace) : ∃ r, .callback c k r ∈ s.trace := by
  have hi := run_inv h hd
  obtain ⟨q1, q2, q3, q4, q5⟩ := hq
  have hst := stuck_empty (hit := fun _ => none) (full := fun _ => false) hi (run_edge hg h hd) q3 q4 q5
    (by rw [q1]; rfl)
  obtain ⟨e1, e2, e3⟩ := hi.t1.ev _ hr
  rcases hi.acc.answered c e1 e3 with h1 | h1 | h1
  · exfalso
    rcases hi.acc.mem_lists.1 h1 with h2 | h2 | h2 | h2 | h2
    · rw [q1] at h2; cases h2
    · rw [q2] at h2; cases h2
    · rw [q3] at h2; cases h2
    · rw [q4] at h2; cases h2
    · rw [q5] at h2; cases h2
  · have := hst.2 c; omega
  · obtain ⟨k', r, hx⟩ := h1
    have := (hi.t1.ev _ hx).2.1
    rw [e2] at this
    rw [this]
    exact ⟨r, hx⟩

/-- A schedule with two requests, both of which are answered. -/
def twoRequests : List Act :=
  [.request (1, 0), .request (0, 1), .start, .ret 0, .start, .complete 0, .ret 1, .complete 1, .callback 1,
    .start, .ret 2, .complete 2, .lookup, .start, .ret 0, .complete 0, .callback 0]

example : (traceOf (sample .frameState .unordered "no frame") twoRequests).map (fun t => t.filter
      (fun e => decide (e.requestOf.isSome ∨ e.callbackOf.isSome))) =
    some [.request 0 (1, 0), .request 1 (0, 1), .callback 1 (0, 1) (.ok 11), .callback 0 (1, 0) (.ok 21)] := by
  decide +kernel

example : ∃ as s, Run (sample .frameState .unordered "no frame").graph as s ∧
    .callback 0 (1, 0) (.ok 21) ∈ s.trace := by
  have h : (traceOf (sample .frameState .unordered "no frame") twoRequests).any
      (fun t => decide (.callback 0 (1, 0) (.ok 21) ∈ t)) = true := by decide +kernel
  cases ht : traceOf (sample .frameState .unordered "no frame") twoRequests with
  | none => rw [ht] at h; cases h
  | some t =>
    obtain ⟨as, s, h1, h2⟩ := traceOf_run ht
    rw [ht] at h
    exact ⟨as, s, h1, by rw [h2]; simpa using h⟩

/-! ## C15 -/

/-- **C15.** If a frame a computation asked for fails, the computation fails too. -/
theorem C15_failed_input {g : Graph F L} {as : List (Action F L)} {s : State F L} (h : Run g as s) {c d : Nat}
    {q k : Key} {m : String} {r : Except String F} (ha : .attach c q d ∈ s.trace)
    (hf : .finish d q (.error m) ∈ s.trace) (hc : .finish c k r ∈ s.trace) : ∃ m', r = .error m' := by
  obtain ⟨s0, hi, _, htr⟩ := run_alive h
  have ha := lift_mem htr (by simp) ha
  have hf := lift_mem htr (by simp) hf
  have hc := lift_mem htr (by simp) hc
  have hov := hi.t1.over c k r hc
  have herr : (s0.ctx c).error = errOf r := hov.2.2.2.2.2.2
  rcases hi.t2.att c q d ha with ho | ⟨r', h1, h2⟩
  · have := ho.pending hi.acc
    have := hov.2.2.2.2.1
    omega
  · have := finish_unique hi.t1.finOnce h1 hf
    have := h2 m this.2
    rw [herr] at this
    cases r with
    | ok f => cases this
    | error m' => exact ⟨m', rfl⟩

/-- **C15.** What the callback of a request receives is the result of its computation; so the callback of a
request that depends on a failing frame receives an error. -/
theorem C15_callback_result {g : Graph F L} {as : List (Action F L)} {s : State F L} (h : Run g as s)
    {t1 t2 : List (Event F)} {c : Nat} {k : Key} {r : Except String F}
    (hs : s.trace = t1 ++ .callback c k r :: t2) : .finish c k r ∈ t1 := by
  obtain ⟨s0, hi, _, htr⟩ := run_alive h
  obtain ⟨w, h1, h2⟩ := lift_split htr (by simp) hs
  exact (hi.t4.cbs _ _ _ _ _ h1).2

/-- **C15.** Every error message has a cause: the number was invalid, or a filter reported it, and it came
from there through frames that were asked for. -/
theorem C15_message_has_cause {g : Graph F L} {as : List (Action F L)} {s : State F L} (h : Run g as s) {c : Nat}
    {k : Key} {m : String} (hc : .finish c k (.error m) ∈ s.trace) : Cause g s.trace c k m := by
  obtain ⟨s0, hi, _, htr⟩ := run_alive h
  have hc := lift_mem htr (by simp) hc
  have hov := hi.t1.over c k _ hc
  have := hi.t2.org c m hov.2.2.2.2.2.2
  rw [(hi.t1.ev _ hc).2] at this
  rcases htr with htr | ⟨_, _, _, _, _, htr⟩
  · rw [htr]; exact this
  · rw [htr]; exact this.mono

/-- **C15.** A computation one of whose inputs fails is called with `error` before it ends. -/
theorem C15_error_call_happens {g : Graph F L} {as : List (Action F L)} {s : State F L} (h : Run g as s) {c d : Nat}
    {q k : Key} {m : String} {r : Except String F} (ha : .attach c q d ∈ s.trace)
    (hf : .finish d q (.error m) ∈ s.trace) (hc : .finish c k r ∈ s.trace) : ∃ a, .call c k .error a ∈ s.trace := by
  obtain ⟨s0, hi, _, htr⟩ := run_alive h
  have ha := lift_mem htr (by simp) ha
  have hf := lift_mem htr (by simp) hf
  have hc := lift_mem htr (by simp) hc
  have hov := hi.t1.over c k r hc
  rcases hi.t4.fail c q d m ha hf with hw | ⟨k', a, hx⟩
  · exfalso
    rcases hw.1 with h1 | h1 | h1
    · have := hov.2.2.2.2.1; omega
    · exact hov.1 h1
    · exact hov.2.1 h1
  · have e1 := (hi.t1.ev _ hx).2
    have e2 := (hi.t1.ev _ hc).2
    rw [e1] at e2
    subst e2
    exact ⟨a, lift_sub htr hx⟩

/-- **C15.** A call with `error` is the last call for a computation and the only one with that reason; all
frames the computation has asked for have been made or have failed before. -/
theorem C15_error_call_once {g : Graph F L} {as : List (Action F L)} {s : State F L} (h : Run g as s)
    {t1 t2 : List (Event F)} {c : Nat} {k : Key} {av : List (Key × F)}
    (hs : s.trace = t1 ++ .call c k .error av :: t2) :
    NoCall c t2 ∧ (∀ k' av', .call c k' .error av' ∉ t1) ∧
    ∀ q d, .attach c q d ∈ s.trace → ∃ r, .finish d q r ∈ t1 := by
  obtain ⟨s0, hi, _, htr⟩ := run_alive h
  obtain ⟨w, h1, h2⟩ := lift_split htr (by simp) hs
  have hcl := hi.calls t1 c k .error av w h1
  have hmem : .call c k .error av ∈ s0.trace := by rw [h1]; exact List.mem_append_right _ (List.mem_cons_self ..)
  refine ⟨fun k' r' a' hx => ?_, fun k' av' hx => ?_, ?_⟩
  · obtain ⟨u, v, huv⟩ := List.append_of_mem (h2 _ (by simp) hx)
    have h3 : s0.trace = (t1 ++ .call c k .error av :: u) ++ .call c k' r' a' :: v := by
      rw [h1, huv]; simp
    have hin : .call c k .error av ∈ t1 ++ .call c k .error av :: u :=
      List.mem_append_right _ (List.mem_cons_self ..)
    rcases (hi.calls _ _ _ _ _ _ h3).1 with hf | ⟨_, _, _, _, _, _, _, hno, _⟩
    · exact hf.1 _ _ _ hin
    · exact hno _ _ hin
  · rcases hcl.1 with hf | ⟨_, _, _, _, _, _, _, hno, _⟩
    · exact hf.1 _ _ _ hx
    · exact hno _ _ hx
  · intro q d ha
    have ha := lift_mem htr (by simp) ha
    rw [h1] at ha
    rcases List.mem_append.1 ha with ha | ha
    · exact hcl.2.2 q d ha
    · rcases List.mem_cons.1 ha with ha | ha
      · cases ha
      · exact absurd ha (hi.t4.last _ _ _ _ _ h1 q d)

/-- A schedule in which an input fails. -/
def failing : List Act :=
  [.request (1, 1), .start, .ret 0, .complete 0, .start, .start, .ret 1, .complete 1, .ret 2, .complete 2,
    .start, .ret 0, .complete 0, .callback 0]

/-- An input fails, the filter is called with `error`, and the callback receives the message. -/
example : traceOf (sample .parallel .unordered "no frame") failing =
    some [.request 0 (1, 1), .call 0 (1, 1) .initial [], .ret 0 (1, 1) [(0, 2), (0, 3)] none none,
      .attach 0 (0, 2) 1, .attach 0 (0, 3) 2, .call 1 (0, 2) .initial [], .call 2 (0, 3) .initial [],
      .ret 1 (0, 2) [] none (some 12), .finish 1 (0, 2) (.ok 12), .ret 2 (0, 3) [] (some "no frame") none,
      .finish 2 (0, 3) (.error "no frame"), .call 0 (1, 1) .error [((0, 2), 12)], .ret 0 (1, 1) [] none none,
      .finish 0 (1, 1) (.error "no frame"), .callback 0 (1, 1) (.error "no frame")] := by
  decide +kernel

/-- **C15, refuted in part.** The message is not always non-empty: a filter may report an empty one. -/
theorem C15_message_nonempty_refuted : ∃ (g : Graph Nat Unit) (as : List (Action Nat Unit)) (s : State Nat Unit) (k : Key),
    Run g as s ∧ .callback 0 k (.error "") ∈ s.trace := by
  have h : (traceOf (sample .parallel .unordered "") failing).any
      (fun t => decide (.callback 0 (1, 1) (.error "") ∈ t)) = true := by decide +kernel
  cases ht : traceOf (sample .parallel .unordered "") failing with
  | none => rw [ht] at h; cases h
  | some t =>
    obtain ⟨as, s, h1, h2⟩ := traceOf_run ht
    rw [ht] at h
    exact ⟨_, as, s, (1, 1), h1, by rw [h2]; simpa using h⟩

/-! ## C16 -/

/-- **C16.** Every call is a first call or a later one, as `FirstCall` and `LaterCall` describe them. -/
theorem C16_activation {g : Graph F L} {as : List (Action F L)} {s : State F L} (h : Run g as s)
    {t1 t2 : List (Event F)} {c : Nat} {k : Key} {r : Reason} {av : List (Key × F)}
    (hs : s.trace = t1 ++ .call c k r av :: t2) : FirstCall g t1 c k r av ∨ LaterCall g t1 c k r av := by
  obtain ⟨s0, hi, _, htr⟩ := run_alive h
  obtain ⟨w, h1, h2⟩ := lift_split htr (by simp) hs
  exact (hi.calls _ _ _ _ _ _ h1).1

/-- **C16.** In particular the reason is `initial` exactly for the first call of a computation, except for
requests from outside for frames that do not exist. -/
theorem C16_initial_iff_first {g : Graph F L} {as : List (Action F L)} {s : State F L} (h : Run g as s)
    {t1 t2 : List (Event F)} {c : Nat} {k : Key} {r : Reason} {av : List (Key × F)}
    (hs : s.trace = t1 ++ .call c k r av :: t2) (hk : .request c k ∈ t1 → 0 ≤ k.2 ∧ k.2 < g.numFrames k.1) :
    r = .initial ↔ NoCall c t1 := by
  have hi := C16_activation h hs
  constructor
  · rintro rfl
    rcases hi with h1 | ⟨_, _, _, _, _, _, _, _, _, h1⟩
    · exact h1.1
    · rcases h1 with ⟨h1, _⟩ | ⟨h1, _⟩ <;> cases h1
  · intro hn
    rcases hi with ⟨_, _, ⟨h1, _⟩ | ⟨_, h1, h2⟩⟩ | h1
    · exact h1
    · exact absurd (hk h1) h2
    · exfalso
      obtain ⟨u, reqs, v, hu, _⟩ := h1
      obtain ⟨s0, hi, _, htr⟩ := run_alive h
      obtain ⟨w, h1, h2⟩ := lift_split htr (by simp) hs
      have := hi.t4.rets u c k reqs none none (v ++ .call c k r av :: w) (by rw [h1, hu]; simp)
      obtain ⟨u1, k', r', a', u2, hm, _⟩ := this
      exact hn k' r' a' (by rw [hu, hm]; simp)

/-- **C16.** When the filter is called with `ready`, `getFrameFilter` gives each frame it asked for in its
last call. -/
theorem C16_ready_has_all_frames {g : Graph F L} {as : List (Action F L)} {s : State F L} (h : Run g as s)
    {t1 t2 : List (Event F)} {c : Nat} {k : Key} {av : List (Key × F)}
    (hs : s.trace = t1 ++ .call c k .ready av :: t2) {u v : List (Event F)} {reqs : List Key} {er : Option String}
    {f : Option F} (hu : t1 = u ++ .ret c k reqs er f :: v) (hv : NoRet c v) :
    ∀ q ∈ reqs, ∃ f, g.getFrame av q = some f := by
  rcases C16_activation h hs with ⟨_, _, ⟨h1, _⟩ | ⟨h1, _⟩⟩ | ⟨u', reqs', v', hu', _, hv', _, _, _, h1⟩
  · cases h1
  · cases h1
  · rcases h1 with ⟨_, _, h1⟩ | ⟨h1, _⟩
    · have e : reqs = reqs' := by
        rw [hu] at hu'
        rcases split_all hu' with ⟨w, h2, h3⟩ | ⟨w, h2⟩
        · exact absurd (by rw [h3]; exact List.mem_append_right _ (List.mem_cons_self ..)) (hv' k reqs er f)
        · cases w with
          | nil => injection h2 with h2 _; injection h2
          | cons y w =>
            injection h2 with _ h2
            exact absurd (by rw [h2]; exact List.mem_append_right _ (List.mem_cons_self ..)) (hv k reqs' none none)
      rw [e]
      intro q hq
      obtain ⟨f, _, hf, _⟩ := h1 q hq
      exact ⟨f, hf⟩
    · cases h1

/-- **C16, refuted in part.** A request from outside for a frame that does not exist calls the filter with
`error` first, for a number that is not a frame number. -/
theorem C16_first_initial_refuted : ∃ (g : Graph Nat Unit) (as : List (Action Nat Unit)) (s : State Nat Unit),
    Run g as s ∧ s.trace = [.request 0 (1, 7), .call 0 (1, 7) .error []] ∧ g.numFrames 1 = 2 := by
  have h : traceOf (sample .parallel .unordered "") [.request (1, 7), .start] =
      some [.request 0 (1, 7), .call 0 (1, 7) .error []] := by decide +kernel
  obtain ⟨as, s, h1, h2⟩ := traceOf_run h
  exact ⟨_, as, s, h1, h2, rfl⟩

/-- A call with `ready`. -/
example : (traceOf (sample .frameState .unordered "no frame") twoRequests).any (fun t => decide
      (.call 0 (1, 0) .ready [((0, 1), 11), ((0, 0), 10)] ∈ t ∨
        .call 0 (1, 0) .ready [((0, 0), 10), ((0, 1), 11)] ∈ t)) = true := by
  decide +kernel

/-! ## C17 -/

/-- Two calls of a filter, one after the other. -/
def TwoCalls (t : List (Event F)) (c : Nat) (k : Key) (r : Reason) (c' : Nat) (k' : Key) (r' : Reason)
    (t2 t3 : List (Event F)) : Prop :=
  ∃ t1 a a', t = t1 ++ .call c k r a :: (t2 ++ .call c' k' r' a' :: t3) ∧ k.1 = k'.1

theorem two_calls {g : Graph F L} {as : List (Action F L)} {s : State F L} (h : Run g as s) {c c' : Nat}
    {k k' : Key} {r r' : Reason} {t2 t3 : List (Event F)} (hs : TwoCalls s.trace c k r c' k' r' t2 t3) :
    ∃ t1 a, MayStart g (t1 ++ .call c k r a :: t2) c' k' r' := by
  obtain ⟨s0, hi, _, htr⟩ := run_alive h
  obtain ⟨t1, a, a', h1, h2⟩ := hs
  rw [show t1 ++ .call c k r a :: (t2 ++ .call c' k' r' a' :: t3) =
    (t1 ++ .call c k r a :: t2) ++ .call c' k' r' a' :: t3 by simp] at h1
  obtain ⟨w, h3, _⟩ := lift_split htr (by simp) h1
  exact ⟨t1, a, (hi.calls _ _ _ _ _ _ h3).2.1⟩

/-- **C17.** A filter declared unordered is not called before its last call has returned. -/
theorem C17_unordered {g : Graph F L} {as : List (Action F L)} {s : State F L} (h : Run g as s) {c c' : Nat}
    {k k' : Key} {r r' : Reason} {t2 t3 : List (Event F)} (hs : TwoCalls s.trace c k r c' k' r' t2 t3)
    (hm : g.mode k.1 = .unordered) : ¬ NoRet c t2 := by
  obtain ⟨t1, a, h1⟩ := two_calls h hs
  obtain ⟨_, _, _, _, hk⟩ := hs
  have := h1 t1 c k r a t2 rfl hk
  rw [← hk, hm] at this
  obtain ⟨k, q, e, f, h2⟩ := this
  exact fun hn => hn k q e f h2

/-- **C17.** A filter declared frame-state is not called before its last call has returned, and when it is
called for another frame it is never again called for the frame before. -/
theorem C17_frame_state {g : Graph F L} {as : List (Action F L)} {s : State F L} (h : Run g as s) {c c' : Nat}
    {k k' : Key} {r r' : Reason} {t2 t3 : List (Event F)} (hs : TwoCalls s.trace c k r c' k' r' t2 t3)
    (hm : g.mode k.1 = .frameState) : ¬ NoRet c t2 ∧ (c' ≠ c → NoCall c t3) := by
  obtain ⟨t1, a, h1⟩ := two_calls h hs
  obtain ⟨t1', a1, a', htr, hk⟩ := id hs
  have := h1 t1 c k r a t2 rfl hk
  rw [← hk, hm] at this
  obtain ⟨⟨k1, q, e, f, h2⟩, _⟩ := this
  generalize k = k0 at *
  refine ⟨fun hn => hn k1 q e f h2, fun hne k3 r3 a3 hx => ?_⟩
  obtain ⟨s0, hi, _, hal⟩ := run_alive h
  have e1 : s.trace = (t1' ++ .call c k0 r a1 :: t2) ++ .call c' k' r' a' :: t3 := by rw [htr]; simp
  obtain ⟨w, h3, h4⟩ := lift_split hal (by simp) e1
  obtain ⟨u, v, huv⟩ := List.append_of_mem (h4 _ (by simp) hx)
  have e2 : s0.trace = (t1' ++ .call c k0 r a1 :: (t2 ++ .call c' k' r' a' :: u)) ++ .call c k3 r3 a3 :: v := by
    rw [h3, huv]; simp
  have hk3 : k3 = k0 := by
    have m1 := hi.t1.ev (.call c k3 r3 a3) (by rw [e2]; simp)
    have m2 := hi.t1.ev (.call c k0 r a1) (by rw [e2]; simp)
    exact m1.2.symm.trans m2.2
  have hms := (hi.calls _ _ _ _ _ _ e2).2.1 t1' c k0 r a1 _ rfl (by rw [hk3])
  rw [hk3, hm] at hms
  exact hne (hms.2 rfl c' k' r' a' (by simp) hk.symm)

/-- **C17.** A filter declared parallel-requests is not called with `ready` before its last such call has
returned. -/
theorem C17_parallel_requests {g : Graph F L} {as : List (Action F L)} {s : State F L} (h : Run g as s) {c c' : Nat}
    {k k' : Key} {t2 t3 : List (Event F)} (hs : TwoCalls s.trace c k .ready c' k' .ready t2 t3)
    (hm : g.mode k.1 = .parallelRequests) : ¬ NoRet c t2 := by
  obtain ⟨t1, a, h1⟩ := two_calls h hs
  obtain ⟨_, _, _, _, hk⟩ := hs
  have := h1 t1 c k .ready a t2 rfl hk
  rw [← hk, hm] at this
  obtain ⟨k, q, e, f, h2⟩ := this (.inr ⟨rfl, rfl⟩)
  exact fun hn => hn k q e f h2

/-- **C17.** Whatever the mode, there is one call for a computation at a time. -/
theorem C17_one_call_per_computation {g : Graph F L} {as : List (Action F L)} {s : State F L} (h : Run g as s)
    {c : Nat} {k k' : Key} {r r' : Reason} {t2 t3 : List (Event F)} (hs : TwoCalls s.trace c k r c k' r' t2 t3) :
    ¬ NoRet c t2 := by
  obtain ⟨t1, a, h1⟩ := two_calls h hs
  obtain ⟨_, _, _, _, hk⟩ := hs
  have := h1 t1 c k r a t2 rfl hk
  rw [← hk] at this
  have : ∃ k q e f, .ret c k q e f ∈ t2 := by
    cases hm : g.mode k.1 with
    | parallel => rw [hm] at this; exact this rfl
    | parallelRequests => rw [hm] at this; exact this (.inl rfl)
    | unordered => rw [hm] at this; exact this
    | frameState => rw [hm] at this; exact this.1
  obtain ⟨k, q, e, f, h2⟩ := this
  exact fun hn => hn k q e f h2

/-- Two calls that are not at once, because the filter is declared frame-state or unordered. -/
example (m : Mode) (hm : m = .frameState ∨ m = .unordered) :
    ∃ as s, Run (sample m .parallel "").graph as s ∧ (sample m .parallel "").graph.mode 0 = m ∧
      ∃ t2, TwoCalls s.trace 0 (0, 0) .initial 1 (0, 1) .initial t2 [] := by
  have h : traceOf (sample m .parallel "") [.request (0, 0), .request (0, 1), .start, .ret 0, .start] =
      some [.request 0 (0, 0), .request 1 (0, 1), .call 0 (0, 0) .initial [], .ret 0 (0, 0) [] none (some 10),
        .call 1 (0, 1) .initial []] := by
    rcases hm with rfl | rfl <;> decide +kernel
  obtain ⟨as, s, h1, h2⟩ := traceOf_run h
  exact ⟨as, s, h1, rfl, [.ret 0 (0, 0) [] none (some 10)], [.request 0 (0, 0), .request 1 (0, 1)], [], [],
    by rw [h2]; rfl, rfl⟩

/-- While the first call is going on a worker finds nothing to do, unless the filter is declared parallel. -/
example : (exec (sample .unordered .parallel "") (State.init (sample .unordered .parallel "").graph)
      [.request (0, 0), .request (0, 1), .start, .start]).isNone = true ∧
    (exec (sample .parallel .parallel "") (State.init (sample .parallel .parallel "").graph)
      [.request (0, 0), .request (0, 1), .start, .start]).isSome = true := by
  constructor <;> decide +kernel

/-! ## C18, first half -/

/-- **C18.** In a graph without cycles, in every state with an unanswered request there is a filter running,
or a worker that has something to finish, or any worker that looks for work finds some. -/
theorem C18_no_deadlock {g : Graph F L} {rank : Nat → Nat} (hg : g.Acyclic rank) {as : List (Action F L)}
    {s : State F L} (h : Run g as s) (hd : s.dead = none) {c : Nat} {k : Key} (hr : .request c k ∈ s.trace)
    (hn : ∀ r, .callback c k r ∉ s.trace) :
    s.running ≠ [] ∨ (∃ c s', s.step g (.complete c) = some s') ∨ (∃ c s', s.step g (.callback c) = some s') ∨
    ∀ hit full, ∃ s', s.step g (.start hit full) = some s' := by
  have hi := run_inv h hd
  have he := run_edge hg h hd
  have hd' : s.dead.isSome = false := by rw [hd]; rfl
  by_cases hrun : s.running ≠ []
  · exact .inl hrun
  have hrun : s.running = [] := Classical.byContradiction hrun
  right
  cases hfin : s.finished with
  | cons p t =>
    left
    cases hp : s.finished.find? (fun p' => p'.1 == p.1) with
    | none =>
      have := List.find?_eq_none.1 hp p (by rw [hfin]; exact List.mem_cons_self ..)
      simp at this
    | some p' => exact ⟨p.1, s.complete g p.1 p'.2, by unfold State.step; simp [hd', hp]⟩
  | nil =>
    right
    cases hret : s.returning with
    | cons p t =>
      left
      cases hp : s.returning.find? (fun p' => p'.1 == p.1) with
      | none =>
        have := List.find?_eq_none.1 hp p (by rw [hret]; exact List.mem_cons_self ..)
        simp at this
      | some p' => exact ⟨p.1, s.callback p.1 p'.2, by unfold State.step; simp [hd', hp]⟩
    | nil =>
      right
      intro hit full
      unfold State.step
      simp only [hd', Bool.false_eq_true, if_false]
      cases hpk : s.pick g hit full s.tasks [] with
      | hit c f => exact ⟨_, rfl⟩
      | call c serial => exact ⟨_, rfl⟩
      | none =>
        obtain ⟨h1, h2⟩ := stuck_empty hi he hrun hfin hret hpk
        have halt : s.alt ≠ [] := by
          intro halt
          obtain ⟨e1, e2, e3⟩ := hi.t1.ev _ hr
          rcases hi.acc.answered c e1 e3 with h3 | h3 | ⟨k', r, h3⟩
          · rcases hi.acc.mem_lists.1 h3 with h3 | h3 | h3 | h3 | h3
            · rw [h1] at h3; cases h3
            · rw [halt] at h3; cases h3
            · rw [hrun] at h3; cases h3
            · rw [hfin] at h3; cases h3
            · rw [hret] at h3; cases h3
          · have := h2 c; omega
          · have := (hi.t1.ev _ h3).2.1
            rw [e2] at this
            exact hn r (by rw [this]; exact h3)
        rw [he.flush halt, hrun, hfin, hret]
        exact ⟨_, rfl⟩

end VS.Pool
