import Verif.Pipe.Finish

/-!
# C39: vspipe writes the frames in order and once, whatever order they are completed in

`Run c as s`: the actions `as`, in any interleaving and with any answers to the requests, lead to `s`.
-/

namespace VS.Pipe

/-- What was written is in order, so nothing is written twice, all of it was wanted, and with each write everything that
comes before it was written: at any time, with errors or without, the files hold a prefix of the whole output. -/
theorem C39_writes_prefix {c : Cfg} {as : List Action} {s : State} (hsame : c.same = false) (h : Run c as s) :
    s.written.Pairwise Item.Before ∧ (∀ i ∈ s.written, c.Wanted i) ∧
    ∀ i ∈ s.written, ∀ j, c.Wanted j → j.Before i → j ∈ s.written := by
  have hi := run_inv hsame h
  have hp := upTo_pairwise c c.total (Nat.le_refl _)
  refine ⟨hp.sublist hi.wr.sublist, fun i hm => ((mem_upTo (Nat.le_refl _) i).1 (hi.wr.subset hm)).1, ?_⟩
  intro i hm j hj hb
  have h1 := ((mem_upTo (Nat.le_refl _) i).1 (hi.wr.subset hm)).2
  refine prefix_closed hi.wr hp hm ((mem_upTo (Nat.le_refl _) j).2 ⟨hj, ?_⟩) hb
  unfold Item.Before at hb
  omega

/-- At the end, if there was no error, everything was written.  Part of the property: `Calm` is needed, see
`C39_early_exit_refuted`. -/
theorem C39_complete_partial {c : Cfg} {as : List Action} {s : State} (hsame : c.same = false) (hr : 1 ≤ c.requests)
    (h : Run c as s) (hc : Calm as) (hf : s.main = .finished) (he : s.err = false) (i : Item) :
    i ∈ s.written ↔ c.Wanted i := by
  have hi := run_inv hsame h
  have f1 := (hi.empty hf).1
  have f2 := (hi.fin hc hf).1
  have hout := (hi.all hr (by rw [hf]; exact fun _ _ h => nomatch h) f1 f2 he).2
  rw [hi.wrOk he, hout, mem_upTo (Nat.le_refl _)]
  constructor
  · exact fun h => h.1
  · intro h
    refine ⟨h, ?_⟩
    cases i <;> exact h.1

/-- Frames are freed once and only if they arrived, and at the end, with errors or without, all are freed.
Part of the property: `Calm` is needed. -/
theorem C39_frees_once_partial {c : Cfg} {as : List Action} {s : State} (hsame : c.same = false) (hr : 1 ≤ c.requests)
    (h : Run c as s) (hc : Calm as) :
    s.freed.Nodup ∧ (∀ k ∈ s.freed, k ∈ s.arrived) ∧ (s.main = .finished → ∀ k ∈ s.arrived, k ∈ s.freed) := by
  have hi := run_inv hsame h
  have hkeys : ∀ k ∈ c.keys s.out, k ∈ s.arrived := by
    intro k hk
    obtain ⟨h1, h2⟩ := (mem_keys c _ k).1 hk
    obtain ⟨g1, g2⟩ := hi.done k.1 h1
    obtain ⟨n, a⟩ := k
    cases a with
    | false => exact g1
    | true => exact g2 (h2 rfl)
  have hleft : ∀ k, k ∈ leftover s.got s.requested ↔ k ∈ s.arrived ∧ s.out ≤ k.1 := by
    rintro ⟨n, a⟩
    rw [mem_leftover]
    cases a with
    | false =>
      show n < _ ∧ (s.got n).1 = true ↔ _
      rw [hi.got1 n]
      exact ⟨fun h => h.2, fun h => ⟨hi.arr_lt h.1, h⟩⟩
    | true =>
      show n < _ ∧ (s.got n).2 = true ↔ _
      rw [hi.got2 n]
      exact ⟨fun h => h.2, fun h => ⟨hi.arr_lt h.1, h⟩⟩
  by_cases hf : s.main = .finished
  · have f1 := (hi.empty hf).1
    obtain ⟨f2, f3⟩ := hi.fin hc hf
    cases he : s.err with
    | true =>
      rw [he, if_pos rfl] at f3
      rw [f3]
      refine ⟨List.nodup_append.2 ⟨keys_nodup c _, leftover_nodup _ _, ?_⟩, ?_, ?_⟩
      · rintro a ha b hb rfl
        have h1 := ((mem_keys c _ a).1 ha).1
        have h2 := ((hleft a).1 hb).2
        omega
      · intro k hk
        rcases List.mem_append.1 hk with hk | hk
        · exact hkeys k hk
        · exact ((hleft k).1 hk).1
      · intro _ k hk
        by_cases ho : k.1 < s.out
        · refine List.mem_append.2 (Or.inl ((mem_keys c _ k).2 ⟨ho, ?_⟩))
          intro e
          obtain ⟨n, a⟩ := k
          simp only at e
          subst e
          exact hi.arr_alpha hk
        · exact List.mem_append.2 (Or.inr ((hleft k).2 ⟨hk, by omega⟩))
    | false =>
      rw [he] at f3
      simp only [Bool.false_eq_true, if_false, List.append_nil] at f3
      rw [f3]
      refine ⟨keys_nodup c _, hkeys, ?_⟩
      intro _ k hk
      have hout := (hi.all hr (by rw [hf]; exact fun _ _ h => nomatch h) f1 f2 he)
      obtain ⟨n, a⟩ := k
      refine (mem_keys c _ _).2 ⟨?_, ?_⟩
      · have := hi.arr_lt hk
        show n < _
        omega
      · intro e
        simp only at e
        subst e
        exact hi.arr_alpha hk
  · rw [hi.freed hf]
    exact ⟨keys_nodup c _, hkeys, fun h => absurd h hf⟩

/-- Each frame of the clip, and of the alpha clip if there is one, is requested at most once; without an error all were
requested at the end. -/
theorem C39_requests {c : Cfg} {as : List Action} {s : State} (hsame : c.same = false) (h : Run c as s) :
    s.requests.Nodup ∧ (∀ n a, (n, a) ∈ s.requests → n < c.total ∧ (a = true → c.alpha = true)) ∧
    (s.main = .finished → s.err = false → ∀ n a, n < c.total → (a = true → c.alpha = true) → (n, a) ∈ s.requests) := by
  have hi := run_inv hsame h
  refine ⟨hi.reqNodup, ?_, ?_⟩
  · intro n a hm
    have h1 := (hi.reqMem n a).1 hm
    have := hi.le
    exact ⟨by omega, h1.1⟩
  · intro hf he n a hn ha
    have hm : ∀ k half, s.main ≠ .issue k half := by rw [hf]; exact fun _ _ h => nomatch h
    have := (hi.empty hf).2 he
    exact (hi.requests_iff hm n a).2 ⟨ha, by omega⟩

/-- There are never more frames waited for than the user allowed: all but so many of the requested frames have
arrived. -/
theorem C39_in_flight {c : Cfg} {as : List Action} {s : State} (hsame : c.same = false) (h : Run c as s)
    {l : List Nat} (hl : l.Nodup)
    (hm : ∀ n ∈ l, (n, false) ∈ s.requests ∧ ¬((n, false) ∈ s.arrived ∧ (c.alpha = true → (n, true) ∈ s.arrived))) :
    l.length ≤ c.requests := by
  have hi := run_inv hsame h
  have h1 := hi.most
  have h2 : ∀ r, (∀ n ∈ l, n < r) → l.length + num c s.arrived r ≤ r := by
    have key : ∀ r (m : List Nat), m.Nodup → (∀ n ∈ m, n < r ∧ ¬Complete c s.arrived n) →
        m.length + num c s.arrived r ≤ r := by
      intro r
      induction r with
      | zero =>
        intro m _ hm
        cases m with
        | nil => exact Nat.le_refl _
        | cons x t => have := (hm x (List.mem_cons_self ..)).1; omega
      | succ r ih =>
        intro m hnd hm
        show m.length + (num c s.arrived r + (if Complete c s.arrived r then 1 else 0)) ≤ r + 1
        by_cases hr : r ∈ m
        · have := ih (m.erase r) (hnd.erase r) (by
            intro n hn
            have h3 := (List.Nodup.mem_erase_iff hnd).1 hn
            have h4 := hm n h3.2
            exact ⟨by omega, h4.2⟩)
          rw [List.length_erase_of_mem hr] at this
          rw [if_neg (hm r hr).2]
          omega
        · have := ih m hnd (by
            intro n hn
            have h4 := hm n hn
            have : n ≠ r := fun e => hr (e ▸ hn)
            exact ⟨by omega, h4.2⟩)
          split <;> omega
    intro r hr
    exact key r l hl (fun n hn => ⟨hr n hn, (hm n hn).2⟩)
  have h3 := h2 s.requested (fun n hn => ((hi.reqMem n false).1 (hm n hn).1).2.1)
  have h4 : c.initial ≤ c.requests := Nat.min_le_left _ _
  omega

/-- After an error nothing else is written, and a callback requests no more frames (the main thread may still be sending
the first batch). -/
theorem C39_error_stops {c : Cfg} {as : List Action} {s s' : State} {a : Action} (hsame : c.same = false)
    (h : Run c as s) (he : s.err = true) (hs : s.step c a = some s') :
    s'.err = true ∧ s'.written = s.written ∧ (a ≠ .issue → s'.requests = s.requests) ∧
    ∀ n b, (n, b) ∈ s'.requests → (n, b) ∈ s.requests ∨ n < c.requests := by
  have hi := run_inv hsame h
  obtain ⟨h1, h2, h3, h4⟩ := step_error hi he hs
  refine ⟨h1, h4, h3, ?_⟩
  intro n b hm
  have hi' := step_inv hsame hi hs
  obtain ⟨g1, g2, g3⟩ := (hi'.reqMem n b).1 hm
  rcases Nat.lt_or_ge n c.initial with hn | hn
  · have : c.initial ≤ c.requests := Nat.min_le_left _ _
    exact Or.inr (by omega)
  · exact Or.inl ((hi.reqMem n b).2 ⟨g1, by omega, Or.inl hn⟩)

/-- vspipe goes on exactly when all requests were answered and the last callback is over. -/
theorem C39_finishes_iff {c : Cfg} {as : List Action} {s : State} (hsame : c.same = false) (hr : 1 ≤ c.requests)
    (h : Run c as s) (hw : s.main = .waiting) :
    (∃ s', s.step c .check = some s') ↔ (∀ k ∈ s.requests, k ∈ s.calls) ∧ s.active = none := by
  have hi := run_inv hsame h
  have hm : ∀ k half, s.main ≠ .issue k half := by rw [hw]; exact fun _ _ h => nomatch h
  simp only [State.step]
  constructor
  · rintro ⟨s', hs⟩
    split at hs
    · next hk =>
      refine ⟨?_, hk.2.1⟩
      intro k hk'
      rcases (hi.split k).1 hk' with h1 | h1
      · rw [(ready_all hi hk.2.2).2.1] at h1; cases h1
      · exact h1
    · cases hs
  · rintro ⟨h1, h2⟩
    have hs : s.sent = [] := by
      cases e : s.sent with
      | nil => rfl
      | cons k l =>
        have hk : k ∈ s.sent := by rw [e]; exact List.mem_cons_self ..
        exact absurd (h1 k ((hi.split k).2 (Or.inl hk))) (hi.apart k hk)
    rw [if_pos ⟨hw, h2, hi.ready hr hm hs h2⟩]
    exact ⟨_, rfl⟩

/-- vspipe does not hang: until it is finished the main thread or the callback can go on, or there is a request that was
not answered yet, and both answers are possible. -/
theorem C39_never_stuck {c : Cfg} {as : List Action} {s : State} (hsame : c.same = false) (hr : 1 ≤ c.requests)
    (h : Run c as s) (hf : s.main ≠ .finished) :
    (∃ s', s.step c .issue = some s') ∨ (∃ s', s.step c .rest = some s') ∨ (∃ s', s.step c .check = some s') ∨
    ∃ k ∈ s.requests, k ∉ s.calls ∧ ∀ ok, ∃ s', s.step c (.begin k ok) = some s' := by
  have hi := run_inv hsame h
  cases hm : s.main with
  | issue k half =>
    left
    simp only [State.step, hm]
    exact ⟨_, rfl⟩
  | finished => exact absurd hm hf
  | waiting =>
    right
    cases ha : s.active with
    | some p =>
      obtain ⟨k, ok⟩ := p
      left
      simp only [State.step, ha]
      exact ⟨_, rfl⟩
    | none =>
      right
      cases hs : s.sent with
      | nil =>
        left
        simp only [State.step]
        rw [if_pos ⟨hm, ha, hi.ready hr (by rw [hm]; exact fun _ _ h => nomatch h) hs ha⟩]
        exact ⟨_, rfl⟩
      | cons k l =>
        right
        have hk : k ∈ s.sent := by rw [hs]; exact List.mem_cons_self ..
        refine ⟨k, (hi.split k).2 (Or.inl hk), hi.apart k hk, ?_⟩
        intro ok
        simp only [State.step]
        rw [if_pos ⟨ha, hk⟩]
        exact ⟨_, rfl⟩

/-- The number of steps is bounded, so vspipe finishes once the requests are answered. -/
theorem C39_bounded {c : Cfg} {as : List Action} {s : State} (hsame : c.same = false) (h : Run c as s) :
    as.length ≤ 6 * c.total + 2 := by
  have h1 := run_length hsame h
  have hi := run_inv hsame h
  have h2 := calls_le hi
  have h3 : c.initial ≤ c.total := Nat.min_le_right _ _
  have h4 : s.main.steps c ≤ 2 * c.initial + 2 := by
    cases hm : s.main with
    | issue k half =>
      have := hi.phase k half hm
      unfold Phase.steps
      cases half with
      | true => simp only [if_true]; omega
      | false => simp only [Bool.false_eq_true, if_false]; omega
    | waiting => show 2 * c.initial + 1 ≤ _; omega
    | finished => exact Nat.le_refl _
  omega

/-- Two frames, with a file in y4m format and one for properties. -/
def twoFrames : Cfg :=
  { total := 2, requests := 5, alpha := false, same := false, outFile := true, y4m := true, planes := 1
    alphaPlanes := 0, timecodes := false, jsonFile := true, write := fun _ => .ok }

/-- Three frames with alpha, two requests at a time. -/
def withAlpha : Cfg :=
  { total := 3, requests := 2, alpha := true, same := false, outFile := true, y4m := false, planes := 1
    alphaPlanes := 1, timecodes := false, jsonFile := false, write := fun _ => .ok }

/-- The frames arrive in the wrong order and are written in the right one. -/
example : (run twoFrames [.issue, .issue, .issue, .begin (1, false) true, .rest, .begin (0, false) true, .rest, .check]
    (State.init twoFrames)).map (fun s => (s.main, s.err, s.written, s.freed)) =
    some (.finished, false,
      [.header 0, .plane 0 0, .json 0 true, .header 1, .plane 1 0, .json 1 false], [(0, false), (1, false)]) := by
  decide +kernel

/-- With alpha; a third frame is requested when the first is complete. -/
example : (run withAlpha [.issue, .issue, .begin (0, true) true, .rest, .issue, .begin (0, false) true, .rest,
    .issue, .issue, .begin (2, true) true, .rest, .begin (2, false) true, .rest, .begin (1, false) true, .rest,
    .begin (1, true) true, .rest, .check] (State.init withAlpha)).map (fun s => (s.main, s.err, s.written)) =
    some (.finished, false,
      [.plane 0 0, .alphaPlane 0 0, .plane 1 0, .alphaPlane 1 0, .plane 2 0, .alphaPlane 2 0]) := by
  decide +kernel

/-- An error: the frame that had to wait is freed at the end and the third one is not requested. -/
example : (run withAlpha [.issue, .issue, .issue, .issue, .issue, .begin (1, true) true, .rest, .begin (0, false) false,
    .rest, .begin (1, false) true, .rest, .begin (0, true) true, .rest, .check]
    (State.init withAlpha)).map (fun s => ((s.main, s.err), s.written, s.freed, s.requested)) =
    some ((.finished, true), [], [(0, true), (1, false), (1, true)], 2) := by
  decide +kernel

/-- The main thread reads the counters without the lock that a callback holds, and a callback counts the frame before it
writes it.  So vspipe can go on to close its files before the last frame was written: `Calm` is needed. -/
theorem C39_early_exit_refuted :
    ∃ as s, Run twoFrames as s ∧ s.main = .finished ∧ s.err = false ∧ ¬∀ i, i ∈ s.written ↔ twoFrames.Wanted i := by
  have h : (run twoFrames [.issue, .issue, .issue, .begin (0, false) true, .rest, .begin (1, false) true, .checkDuring]
      (State.init twoFrames)).map (fun s => (s.main, s.err, s.written)) =
      some (.finished, false, [.header 0, .plane 0 0, .json 0 true]) := by decide +kernel
  cases hr : run twoFrames [.issue, .issue, .issue, .begin (0, false) true, .rest, .begin (1, false) true, .checkDuring]
      (State.init twoFrames) with
  | none => rw [hr] at h; cases h
  | some s =>
    rw [hr] at h
    injection h with h
    injection h with h1 h
    injection h with h2 h3
    refine ⟨_, s, run_run hr, h1, h2, ?_⟩
    intro hall
    have := (hall (.plane 1 0)).2 ⟨by decide, rfl, by decide⟩
    rw [h3] at this
    revert this
    decide

/-- The clip is its own alpha clip. -/
def ownAlpha : Cfg :=
  { total := 1, requests := 1, alpha := true, same := true, outFile := true, y4m := false, planes := 1
    alphaPlanes := 1, timecodes := false, jsonFile := false, write := fun _ => .ok }

/-- A gray clip set as its own alpha clip passes all checks, but the callback cannot tell the two apart: both requests
are answered, nothing can happen any more and vspipe waits forever. -/
theorem C39_alias_refuted :
    ∃ as s, Run ownAlpha as s ∧ Calm as ∧ s.main ≠ .finished ∧ (∀ k ∈ s.requests, k ∈ s.calls) ∧ s.written = [] ∧
    ∀ a, s.step ownAlpha a = none := by
  have h : (run ownAlpha [.issue, .issue, .issue, .begin (0, false) true, .rest, .begin (0, true) true, .rest]
      (State.init ownAlpha)).map (fun s => (s.main, s.requests, s.calls, s.written)) =
      some (.waiting, [(0, false), (0, true)], [(0, false), (0, true)], []) := by decide +kernel
  have h' : (run ownAlpha [.issue, .issue, .issue, .begin (0, false) true, .rest, .begin (0, true) true, .rest]
      (State.init ownAlpha)).map (fun s => (s.sent, s.active, s.ready)) = some ([], none, false) := by decide +kernel
  cases hr : run ownAlpha [.issue, .issue, .issue, .begin (0, false) true, .rest, .begin (0, true) true, .rest]
      (State.init ownAlpha) with
  | none => rw [hr] at h; cases h
  | some s =>
    rw [hr] at h h'
    injection h with h
    injection h' with h'
    simp only [Prod.mk.injEq] at h h'
    obtain ⟨h1, h2, h3, h4⟩ := h
    obtain ⟨h5, h6, h7⟩ := h'
    refine ⟨_, s, run_run hr, ?_, ?_, ?_, h4, ?_⟩
    · unfold Calm; decide
    · rw [h1]; exact fun h => nomatch h
    · rw [h2, h3]; exact fun _ h => h
    · intro a
      cases a with
      | issue => simp only [State.step, h1]
      | «begin» k ok => simp only [State.step, h5]; simp
      | rest => simp only [State.step, h6]
      | check => simp only [State.step, h7]; simp
      | checkDuring => simp only [State.step, h7]; simp

end VS.Pipe
