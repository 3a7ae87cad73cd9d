import Verif.Log.LemmasInv

/-!
# C26: log messages are neither lost nor reordered
-/

namespace VS.Log
open VS.Log.Spec

/-- The trace of a history with a handler `u` installed after `t1`: it receives nothing before, then
the old messages that were kept and every message logged while it is installed, each exactly
once, and nothing after it was removed.  Handlers may log themselves. -/
theorem C26_received (t t1 t2 : List Event) (u : Nat) (h : Trace t)
    (e : t = t1 ++ .installed u :: t2) :
    received u t1 = [] ∧ ∃ old, Backlog t1 old ∧
      (.removed u ∉ t2 → List.Perm (received u t2) (old ++ logged t2)) ∧
      ∀ a b, t2 = a ++ .removed u :: b →
        List.Perm (received u a) (old ++ logged a) ∧ received u b = [] := by
  obtain ⟨calls, hd, ht⟩ := h
  have hi := run_inv good_perm init_inv hd (fun x _ => .inl rfl)
  obtain ⟨_, h1, old, h2, h3, h4⟩ := hi.hist t1 u t2 (ht.trans e)
  exact ⟨h1, old, h2, h3, fun a b e => ⟨(h4 a b e).1, (h4 a b e).2.1⟩⟩

/-- If no handler logs anything itself, the messages arrive in the order in which they were logged:
first the old ones, then the new ones. -/
theorem C26_order (calls : List Call) (hf : ∀ x ∈ calls, Flat x)
    (hd : (State.init.run calls).dead = false) (t1 t2 : List Event) (u : Nat)
    (e : (State.init.run calls).trace = t1 ++ .installed u :: t2) :
    ∃ old, Backlog t1 old ∧
      (.removed u ∉ t2 → received u t2 = old ++ logged t2) ∧
      ∀ a b, t2 = a ++ .removed u :: b → received u a = old ++ logged a ∧ received u b = [] := by
  have hi := run_inv good_eq init_inv hd (fun x hx => .inr ⟨rfl, hf x hx⟩)
  obtain ⟨_, _, old, h2, h3, h4⟩ := hi.hist t1 u t2 e
  exact ⟨old, h2, h3, fun a b e => ⟨(h4 a b e).1, (h4 a b e).2.1⟩⟩

/-- There is always exactly one answer to what the next handler will be told. -/
theorem C26_backlog (t : List Event) (h : Trace t) :
    ((∃ v, Installed t v) ∨ ∃ b, Since t b) ∧ ∃ old, Backlog t old ∧ ∀ old', Backlog t old' → old' = old := by
  obtain ⟨calls, hd, ht⟩ := h
  have hi := run_inv good_perm init_inv hd (fun x _ => .inl rfl)
  subst ht
  have hc : (∃ v, Installed (State.init.run calls).trace v) ∨
      ∃ b, Since (State.init.run calls).trace b := by
    cases hh : (State.init.run calls).handlers with
    | nil =>
      obtain ⟨b, h1, _⟩ := hi.kept hh
      exact .inr ⟨b, h1⟩
    | cons v l => exact .inl ⟨v, (hi.inst v).1 (by rw [hh]; exact List.mem_cons_self ..)⟩
  refine ⟨hc, _, backlog_ok hi, ?_⟩
  intro old' h'
  have h0 := backlog_ok hi
  rcases hc with hc | ⟨b, hb⟩
  · rw [h'.none hc, h0.none hc]
  · rw [h'.some b hb, h0.some b hb]

/-- One call of `logMessage` in any reachable state: all deliveries it causes happen before it returns,
every installed handler receives every message logged during the call (its own and those of the
handlers) exactly once, and nobody else receives anything. -/
theorem C26_call (calls : List Call) (m : Msg) (rs : List (List Ev))
    (hd : ((State.init.run calls).step (.log (.log m rs))).dead = false) :
    let s := State.init.run calls
    ∃ t, (s.step (.log (.log m rs))).trace = s.trace ++ .logged m :: t ∧
      (∀ u, Installed s.trace u → List.Perm (received u t) (m :: logged t)) ∧
      (∀ u, ¬ Installed s.trace u → received u t = []) ∧
      (rs = [] → logged t = []) := by
  intro s
  have hd0 : s.dead = false := alive (f := State.step) (fun s a h => step_dead h a) hd
  have hi := run_inv good_perm init_inv (xs := calls) hd0 (fun x _ => .inl rfl)
  obtain ⟨_, t, hb, h1, _⟩ := logMsg_block (.log m rs) hi.nodup hi.nodup3 hd
  have hstart : ∃ t', t = .logged m :: t' := by
    have hs : (s.logMsg (.log m rs)).trace = s.trace ++ t := hb.trace
    obtain ⟨t', ht'⟩ := logMsg_start (s := s) m rs hi.nodup hi.nodup3 hd
    rw [hs] at ht'
    exact ⟨t', List.append_cancel_left ht'⟩
  obtain ⟨t', rfl⟩ := hstart
  refine ⟨t', hb.trace, ?_, ?_, ?_⟩
  · intro u hu
    have := hb.recv u
    rw [if_pos ((hi.inst u).2 hu)] at this
    exact this
  · intro u hu
    have := hb.recv u
    rw [if_neg (fun x => hu ((hi.inst u).1 x))] at this
    exact this.eq_nil
  · intro e
    obtain ⟨m', hm'⟩ := h1 (.inr e)
    have : m :: logged t' = [m'] := hm'
    injection this

/-- A message of the fatal kind is handed to every handler before the process ends. -/
theorem C26_fatal (calls : List Call) (m : Msg) (hf : m.type = mtFatal)
    (hd : (State.init.run calls).dead = false) :
    let s := State.init.run calls
    let s' := s.step (.log (.log m []))
    s'.dead = true ∧ ∃ t, s'.trace = s.trace ++ .logged m :: t ∧
      ∀ u, Installed s.trace u → received u t = [m] := by
  intro s s'
  have hi := run_inv good_perm init_inv (xs := calls) hd (fun x _ => .inl rfl)
  exact fatal_all hi hd m hf

/-- The free function of a handler is called at most once, after its last message, and exactly once if
it was removed or the core was freed. -/
theorem C26_free (calls : List Call) (hd : (State.init.run calls).dead = false) (u : Nat) :
    let t := (State.init.run calls).trace
    (∀ a b, t = a ++ .removed u :: b → .installed u ∈ a ∧ .removed u ∉ a ∧ .removed u ∉ b ∧
      received u b = []) ∧
    (.installed u ∈ t → .removed u ∈ ((State.init.run calls).step .close).trace) ∧
    (.installed u ∈ t → .removed u ∈ ((State.init.run calls).step (.remove u)).trace) := by
  intro t
  have hi := run_inv good_perm init_inv (xs := calls) hd (fun x _ => .inl rfl)
  refine ⟨?_, ?_, ?_⟩
  · intro a b e
    obtain ⟨t1, t2, e1⟩ : ∃ t1 t2, t = t1 ++ .installed u :: t2 := by
      refine List.append_of_mem ?_
      exact hi.sane u (by show _ ∈ t; rw [e]; simp)
    obtain ⟨g0, _, old, _, _, g4⟩ := hi.hist t1 u t2 e1
    have hr : .removed u ∈ t2 := by
      have hx : .removed u ∈ t1 ++ .installed u :: t2 := by rw [← e1, e]; simp
      simp only [List.mem_append, List.mem_cons, reduceCtorEq, false_or] at hx
      exact hx.resolve_left g0.2.2
    obtain ⟨x, y, e2⟩ := List.append_of_mem hr
    obtain ⟨_, g5, g6⟩ := g4 x y e2
    have hnx : .removed u ∉ x := by
      intro hx
      obtain ⟨x1, x2, e3⟩ := List.append_of_mem hx
      have := (g4 x1 (x2 ++ .removed u :: y) (by rw [e2, e3]; simp)).2.2
      exact this (by simp)
    have hall : t = (t1 ++ .installed u :: x) ++ .removed u :: y := by rw [e1, e2]; simp
    have hn : .removed u ∉ t1 ++ .installed u :: x := by simp [g0.2.2, hnx]
    obtain ⟨f1, f2⟩ := split_right (hall.symm.trans e) hn g6
    subst f1; subst f2
    exact ⟨by simp, hn, g6, g5⟩
  · intro hin
    obtain ⟨h1, _, h3⟩ := removeAll_inv hi hd rfl
    have hn : ¬ Installed (removeAll (State.init.run calls).handlers.length
        (State.init.run calls)).trace u := by
      rw [← h1.inst, h3]; simp
    have hin' : .installed u ∈ (removeAll (State.init.run calls).handlers.length
        (State.init.run calls)).trace := removeAll_keeps _ _ hin
    exact Classical.byContradiction (fun hx => hn ⟨hin', hx⟩)
  · intro hin
    show .removed u ∈ (State.removeHandler _ u).trace
    unfold State.removeHandler
    rw [if_neg (by simp [hd])]
    split
    · simp
    · next hn =>
      exact Classical.byContradiction (fun hx => hn ((hi.inst u).2 ⟨hin, hx⟩))

/-- Version 3 handlers: while none is added or removed each receives every message, from version 3 or
version 4 programs, exactly once. -/
theorem C26_version3 (calls : List Call) (x : Call)
    (hx : (∃ e, x = .log e) ∨ ∃ m, x = .log3 m)
    (hd : ((State.init.run calls).step x).dead = false) :
    let s := State.init.run calls
    ∃ t, (s.step x).trace = s.trace ++ t ∧
      ∀ v, List.Perm (received3 v t) (if v ∈ s.handlers3 then logged3 t else []) := by
  intro s
  have hd0 : s.dead = false := alive (f := State.step) (fun s a h => step_dead h a) hd
  have hi := run_inv good_perm init_inv (xs := calls) hd0 (fun x _ => .inl rfl)
  rcases hx with ⟨e, rfl⟩ | ⟨m, rfl⟩
  · obtain ⟨_, t, hb, _⟩ := logMsg_block e hi.nodup hi.nodup3 hd
    exact ⟨t, hb.trace, hb.recv3⟩
  · have e : s.step (.log3 m) = { s with trace := s.trace ++ (.logged3 m ::
        s.handlers3.map (fun h => .deliver3 h m)) } := by
      show s.logMsg3 m = _
      unfold State.logMsg3 State.log3 State.emit
      rw [if_neg (by simp [hd0]),
        emitAll3_obs (s := { s with trace := s.trace ++ [.logged3 m] }) hd0]
      simp
    obtain ⟨_, _, b3, _, b5⟩ := map_deliver3 m s.handlers3 hi.nodup3
    refine ⟨_, by rw [e], ?_⟩
    intro v
    have h1 : received3 v (.logged3 m :: s.handlers3.map (fun h => .deliver3 h m)) =
        if v ∈ s.handlers3 then [m] else [] := b5 v
    have h2 : logged3 (.logged3 m :: s.handlers3.map (fun h => .deliver3 h m)) = [m] := by
      have : logged3 (.logged3 m :: s.handlers3.map (fun h => .deliver3 h m)) =
        m :: logged3 (s.handlers3.map (fun h => .deliver3 h m)) := rfl
      rw [this, b3]
    rw [h1, h2]

/-- Where "in logging order" ends: if a handler logs while it handles a message, another handler can
receive the two messages in the other order. -/
theorem C26_nested_order_refuted :
    ∃ calls, let t := (State.init.run calls).trace
      (State.init.run calls).dead = false ∧
      logged t = [⟨1, "a"⟩, ⟨1, "b"⟩] ∧ received 0 t = [⟨1, "a"⟩, ⟨1, "b"⟩] ∧
      received 1 t = [⟨1, "b"⟩, ⟨1, "a"⟩] :=
  ⟨[.add 0 [] [], .add 1 [] [], .log (.log ⟨1, "a"⟩ [[.log ⟨1, "b"⟩ []]])], by decide +kernel⟩

/-- What version 3 programs log does not reach the handlers of the core and is not kept. -/
theorem C26_version3_separate :
    let t := (State.init.run [.add 0 [] [], .log3 ⟨1, "a"⟩]).trace
    received 0 t = [] ∧ logged t = [] := by decide +kernel

/-- A history with kept messages, two handlers, one of which logs, and a removal. -/
example : let t := (State.init.run [.log (.log ⟨1, "a"⟩ []), .log (.log ⟨2, "b"⟩ []), .add 0 [[.log ⟨0, "c"⟩ []]] [],
      .add 0 [] [], .log (.log ⟨3, "d"⟩ []), .remove 0, .log (.log ⟨3, "e"⟩ [])]).trace
    Trace t ∧ received 0 t = [⟨1, "a"⟩, ⟨0, "c"⟩, ⟨2, "b"⟩, ⟨3, "d"⟩] ∧
      received 1 t = [⟨3, "d"⟩, ⟨3, "e"⟩] :=
  ⟨⟨_, by decide +kernel, rfl⟩, by decide +kernel, by decide +kernel⟩

end VS.Log
