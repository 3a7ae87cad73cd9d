import Verif.Log.Spec

/-!
# Helper lemmas for the log
-/

namespace VS.Log
open VS.Log.Spec

/-! ## After the end -/

theorem emit_dead {s : State} (h : s.dead = true) (e : Event) : s.emit e = s := by
  unfold State.emit; rw [if_pos h]

theorem emitAll_dead {m : Msg} : ∀ {hs : List Nat} {s : State}, s.dead = true → emitAll s m hs = s
  | [], _, _ => rfl
  | h :: t, s, hd => by
    unfold emitAll
    rw [emit_dead hd]
    exact emitAll_dead hd

theorem emitAll3_dead {m : Msg} : ∀ {hs : List Nat} {s : State}, s.dead = true → emitAll3 s m hs = s
  | [], _, _ => rfl
  | h :: t, s, hd => by
    unfold emitAll3
    rw [emit_dead hd]
    exact emitAll3_dead hd

theorem logMsg_dead {s : State} (h : s.dead = true) (e : Ev) : s.logMsg e = s := by
  cases e with
  | log m rs => rw [State.logMsg, if_pos h]

theorem logAll_dead {s : State} (h : s.dead = true) : ∀ l, logAll s l = s
  | [] => by rw [logAll]
  | e :: t => by rw [logAll, logMsg_dead h]; exact logAll_dead h t

theorem deliver_dead {s : State} (h : s.dead = true) (m : Msg) :
    ∀ rs hs, deliver s m hs rs = s
  | [], hs => by rw [deliver]; exact emitAll_dead h
  | r :: rs, [] => by rw [deliver]
  | r :: rs, x :: t => by
    rw [deliver, emit_dead h, logAll_dead h]; exact deliver_dead h m rs t

theorem log3_dead {s : State} (h : s.dead = true) (m : Msg) : s.log3 m = s := emitAll3_dead h

theorem pass3_dead {s : State} (h : s.dead = true) (m : Msg) : s.pass3 m = s := by
  unfold State.pass3
  cases type3 m.type with
  | none => rfl
  | some t => exact log3_dead h _

theorem store_dead {s : State} (h : s.dead = true) (m : Msg) : s.store m = s := by
  unfold State.store; rw [if_pos h]

theorem replay_dead {s : State} (h : s.dead = true) (u : Nat) :
    ∀ ms rs, replay s u ms rs = s
  | [], _ => rfl
  | m :: t, rs => by
    rw [replay, emit_dead h, logAll_dead h]; exact replay_dead h u t _

theorem removeHandler_dead {s : State} (h : s.dead = true) (u : Nat) : s.removeHandler u = s := by
  unfold State.removeHandler; rw [if_pos h]

theorem removeAll_dead : ∀ {n : Nat} {s : State}, s.dead = true → removeAll n s = s
  | 0, _, _ => rfl
  | n + 1, s, h => by
    unfold removeAll
    split
    · rfl
    · rw [removeHandler_dead h]; exact removeAll_dead h

theorem step_dead {s : State} (h : s.dead = true) (x : Call) : s.step x = s := by
  cases x with
  | log e => exact logMsg_dead h e
  | log3 m =>
    show s.logMsg3 m = s
    unfold State.logMsg3
    rw [emit_dead h]
    exact log3_dead h m
  | add p rs rw' => show s.addHandler p rs rw' = s; unfold State.addHandler; rw [if_pos h]
  | remove u => exact removeHandler_dead h u
  | close => exact removeAll_dead h
  | add3 => show s.add3 = s; unfold State.add3; rw [if_pos h]
  | remove3 u => show s.remove3 u = s; unfold State.remove3; rw [if_pos h]
  | set3 i => show s.set3 i = s; unfold State.set3; rw [if_pos h]

theorem run_dead {s : State} (h : s.dead = true) : ∀ xs, s.run xs = s
  | [] => rfl
  | x :: t => by rw [State.run, step_dead h]; exact run_dead h t

/-- Whatever ends alive started alive. -/
theorem alive {α : Type} {f : State → α → State} (hf : ∀ s a, s.dead = true → f s a = s)
    {s : State} {a : α} (h : (f s a).dead = false) : s.dead = false := by
  cases hd : s.dead with
  | false => rfl
  | true => rw [hf s a hd, hd] at h; cases h

/-! ## Observations -/

theorem logged_append (a b : List Event) : logged (a ++ b) = logged a ++ logged b :=
  List.filterMap_append ..

theorem received_append (u : Nat) (a b : List Event) :
    received u (a ++ b) = received u a ++ received u b := List.filterMap_append ..

theorem received3_append (u : Nat) (a b : List Event) :
    received3 u (a ++ b) = received3 u a ++ received3 u b := List.filterMap_append ..

theorem Quiet.append {a b : List Event} (ha : Quiet a) (hb : Quiet b) : Quiet (a ++ b) := by
  intro h
  simp only [List.mem_append, not_or]
  exact ⟨⟨(ha h).1, (hb h).1⟩, (ha h).2, (hb h).2⟩

theorem logged3_append (a b : List Event) : logged3 (a ++ b) = logged3 a ++ logged3 b :=
  List.filterMap_append ..

theorem logged3_logged (m : Msg) (t : List Event) :
    logged3 (.logged m :: t) = (to3 m).toList ++ logged3 t := by
  have : logged3 [.logged m] = (to3 m).toList := by
    unfold logged3
    rw [List.filterMap_cons]
    simp only [List.filterMap_nil]
    cases h : to3 m <;> rfl
  rw [← this, ← logged3_append]
  rfl

theorem to3_eq (m : Msg) : to3 m = (type3 m.type).map fun t => { m with type := t } := by
  obtain ⟨ty, tx⟩ := m
  unfold to3 type3
  split <;> simp_all

/-- A stretch of time in which messages are logged and delivered and handlers do not change; `x u`
is what handler `u` receives besides the messages logged in this stretch. -/
structure Block (s s' : State) (t : List Event) (x : Nat → List Msg) : Prop where
  handlers : s'.handlers = s.handlers
  next : s'.next = s.next
  handlers3 : s'.handlers3 = s.handlers3
  next3 : s'.next3 = s.next3
  global3 : s'.global3 = s.global3
  trace : s'.trace = s.trace ++ t
  quiet : Quiet t
  stored : s.handlers ≠ [] → s'.stored = s.stored
  recv : ∀ u, List.Perm (received u t) (x u ++ if u ∈ s.handlers then logged t else [])
  recv3 : ∀ v, List.Perm (received3 v t)
    (if v ∈ s.handlers3 then logged3 t else [])

theorem Block.nil (s : State) : Block s s [] (fun _ => []) :=
  ⟨rfl, rfl, rfl, rfl, rfl, (List.append_nil _).symm, (fun _ => ⟨by simp, by simp⟩), fun _ => rfl,
    (fun u => by simp [received, logged]), (fun v => by simp [received3, logged3])⟩

theorem perm_shuffle {α : Type} (a b c d : List α) :
    List.Perm ((a ++ b) ++ (c ++ d)) ((a ++ c) ++ (b ++ d)) := by
  rw [List.append_assoc, List.append_assoc]
  refine List.Perm.append_left a ?_
  rw [← List.append_assoc, ← List.append_assoc]
  exact List.perm_append_comm.append_right d

theorem Block.trans {s s1 s2 : State} {t1 t2 : List Event} {x1 x2 : Nat → List Msg}
    (h1 : Block s s1 t1 x1) (h2 : Block s1 s2 t2 x2) :
    Block s s2 (t1 ++ t2) (fun u => x1 u ++ x2 u) where
  handlers := h2.handlers.trans h1.handlers
  next := h2.next.trans h1.next
  handlers3 := h2.handlers3.trans h1.handlers3
  next3 := h2.next3.trans h1.next3
  global3 := h2.global3.trans h1.global3
  trace := by rw [h2.trace, h1.trace, List.append_assoc]
  quiet := Quiet.append h1.quiet h2.quiet
  stored := fun h => by rw [h2.stored (by rw [h1.handlers]; exact h), h1.stored h]
  recv := fun u => by
    have a := h1.recv u
    have b := h2.recv u
    rw [h1.handlers] at b
    rw [received_append, logged_append]
    refine (a.append b).trans ((perm_shuffle ..).trans ?_)
    split
    · exact .refl _
    · exact .refl _
  recv3 := fun v => by
    have a := h1.recv3 v
    have b := h2.recv3 v
    rw [h1.handlers3] at b
    rw [received3_append, logged3_append]
    refine (a.append b).trans ?_
    split
    · exact .refl _
    · exact .refl _

theorem Block.congr {s s' : State} {t : List Event} {x y : Nat → List Msg}
    (h : Block s s' t x) (e : ∀ u, x u = y u) : Block s s' t y := by
  have : x = y := funext e
  rw [← this]; exact h

theorem emit_block {s : State} (hd : s.dead = false) (h : Nat) (m : Msg) :
    Block s (s.emit (.deliver h m)) [.deliver h m] (fun u => if h = u then [m] else []) := by
  unfold State.emit
  rw [hd, if_neg (by simp)]
  refine ⟨rfl, rfl, rfl, rfl, rfl, rfl, ?_, fun _ => rfl, ?_, ?_⟩
  · intro h; simp
  · intro u
    by_cases e : h = u
    · simp [received, logged, e]
    · simp [received, logged, e]
  · intro v; simp [received3, logged3]

theorem emit_alive {s : State} {e : Event} : (s.emit e).dead = s.dead := by
  unfold State.emit; split <;> rfl

theorem emitAll_block {m : Msg} : ∀ {hs : List Nat} {s : State}, hs.Nodup → s.dead = false →
    ∃ t, Block s (emitAll s m hs) t (fun u => if u ∈ hs then [m] else []) ∧
      (emitAll s m hs).dead = false ∧ t = hs.map (fun h => .deliver h m)
  | [], s, _, hd => ⟨[], by simpa [emitAll] using Block.nil s, hd, rfl⟩
  | h :: l, s, hn, hd => by
    obtain ⟨h1, h2⟩ := List.nodup_cons.1 hn
    obtain ⟨t, b, hd', ht⟩ := emitAll_block (m := m) (s := s.emit (.deliver h m)) h2 (by rw [emit_alive, hd])
    refine ⟨_, ((emit_block hd h m).trans b).congr ?_, hd', by rw [ht]; rfl⟩
    intro u
    by_cases e : h = u
    · subst e; simp [h1]
    · have : u ≠ h := fun x => e x.symm
      simp [e, this]

theorem emitAll3_obs {m : Msg} : ∀ {hs : List Nat} {s : State}, s.dead = false →
    emitAll3 s m hs = { s with trace := s.trace ++ hs.map (fun h => .deliver3 h m) }
  | [], s, _ => by simp [emitAll3]
  | h :: l, s, hd => by
    rw [emitAll3, emitAll3_obs (by rw [emit_alive, hd])]
    unfold State.emit
    rw [hd, if_neg (by simp)]
    simp

theorem map_deliver3 (m : Msg) (hs : List Nat) (hn : hs.Nodup) :
    Quiet (hs.map (fun h => .deliver3 h m)) ∧ logged (hs.map (fun h => .deliver3 h m)) = [] ∧
    logged3 (hs.map (fun h => .deliver3 h m)) = [] ∧
    (∀ u, received u (hs.map (fun h => .deliver3 h m)) = []) ∧
    ∀ v, received3 v (hs.map (fun h => .deliver3 h m)) = if v ∈ hs then [m] else [] := by
  refine ⟨?_, ?_, ?_, ?_, ?_⟩
  · intro h; simp
  · simp only [logged, List.filterMap_map]
    induction hs with
    | nil => rfl
    | cons a l ih => simp
  · simp only [logged3, List.filterMap_map]
    induction hs with
    | nil => rfl
    | cons a l ih => simp
  · intro u
    simp only [received, List.filterMap_map]
    induction hs with
    | nil => rfl
    | cons a l ih => simp
  · intro v
    induction hs with
    | nil => rfl
    | cons a l ih =>
      obtain ⟨h1, h2⟩ := List.nodup_cons.1 hn
      have := ih h2
      unfold received3 at this ⊢
      rw [List.map_cons, List.filterMap_cons]
      by_cases e : a = v
      · subst e
        simp only [if_true]
        rw [this, if_neg h1]
        simp
      · simp only [if_neg e]
        rw [this]
        have e' : v ≠ a := fun x => e x.symm
        simp [e']

/-- Storing, passing on and ending, for a message that does not end the process. -/
theorem finish_block {s s' : State} {m : Msg} (hd : s.dead = false) (hn : s.handlers3.Nodup)
    (e : s' = ((s.store m).pass3 m).terminate m) (hd' : s'.dead = false) :
    m.type ≠ mtFatal ∧ ∃ t, s'.handlers = s.handlers ∧ s'.next = s.next ∧
      s'.handlers3 = s.handlers3 ∧ s'.next3 = s.next3 ∧ s'.global3 = s.global3 ∧
      s'.trace = s.trace ++ t ∧ Quiet t ∧ logged t = [] ∧ logged3 t = [] ∧ (∀ u, received u t = []) ∧
      (∀ v, received3 v t = if v ∈ s.handlers3 then (to3 m).toList else []) ∧
      s'.stored = (if s.handlers = [] ∧ s.stored.length < maxStored then s.stored ++ [m]
        else s.stored) := by
  subst e
  have hf : m.type ≠ mtFatal := by
    intro e
    unfold State.terminate at hd'
    rw [if_pos e] at hd'
    cases hd'
  refine ⟨hf, ?_⟩
  have e1 : ((s.store m).pass3 m).terminate m = (s.store m).pass3 m := by
    unfold State.terminate; rw [if_neg hf]
  rw [e1]
  have hs : ∃ s1, s.store m = s1 ∧ s1.dead = false ∧ s1.handlers = s.handlers ∧ s1.next = s.next ∧
      s1.handlers3 = s.handlers3 ∧ s1.next3 = s.next3 ∧ s1.global3 = s.global3 ∧
      s1.trace = s.trace ∧ s1.stored =
        (if s.handlers = [] ∧ s.stored.length < maxStored then s.stored ++ [m] else s.stored) := by
    unfold State.store
    rw [hd, if_neg (by simp)]
    split
    · exact ⟨_, rfl, rfl, rfl, rfl, rfl, rfl, rfl, rfl, rfl⟩
    · exact ⟨_, rfl, hd, rfl, rfl, rfl, rfl, rfl, rfl, rfl⟩
  obtain ⟨s1, he, hd1, a1, a2, a3, a4, a5, a6, a7⟩ := hs
  rw [he]
  unfold State.pass3
  cases ht : type3 m.type with
  | none =>
    refine ⟨[], a1, a2, a3, a4, a5, by rw [List.append_nil, a6], ?_, rfl, rfl, fun _ => rfl, ?_, a7⟩
    · intro h; simp
    · intro v; simp [received3, to3_eq, ht]
  | some ty =>
    simp only
    unfold State.log3
    rw [emitAll3_obs hd1]
    have hn1 : s1.handlers3.Nodup := by rw [a3]; exact hn
    obtain ⟨b1, b2, b2', b3, b4⟩ := map_deliver3 { m with type := ty } s1.handlers3 hn1
    refine ⟨_, a1, a2, a3, a4, a5, by rw [← a6], b1, b2, b2', b3, ?_, a7⟩
    intro v
    rw [b4, a3]
    simp [to3_eq, ht]

/-! ## Logging -/

theorem block_start {s : State} {m : Msg} {t : List Event} {s1 : State} (hd : s.dead = false)
    (hb : Block (s.emit (.logged m)) s1 t (fun u => if u ∈ s.handlers then [m] else []))
    (hn3 : s.handlers3.Nodup) (hd1 : s1.dead = false)
    {s' : State} (e : s' = ((s1.store m).pass3 m).terminate m) (hd' : s'.dead = false) :
    m.type ≠ mtFatal ∧ ∃ t', Block s s' (.logged m :: t ++ t') (fun _ => []) ∧ logged t' = [] ∧
      s'.stored = (if s.handlers = [] ∧ s1.stored.length < maxStored then s1.stored ++ [m]
        else s1.stored) := by
  have he : s.emit (.logged m) = { s with trace := s.trace ++ [.logged m] } := by
    unfold State.emit; rw [hd, if_neg (by simp)]
  rw [he] at hb
  have hh3 : s1.handlers3 = s.handlers3 := hb.handlers3
  have hh : s1.handlers = s.handlers := hb.handlers
  obtain ⟨hf, t', a1, a2, a3, a4, a5, a6, a7, a8, a8', a9, a10, a11⟩ :=
    finish_block hd1 (by rw [hh3]; exact hn3) e hd'
  refine ⟨hf, t', ?_, a8, by rw [a11, hh]⟩
  have hl : logged (.logged m :: t ++ t') = m :: logged t := by
    rw [logged_append, a8, List.append_nil]; rfl
  have hl3 : logged3 (.logged m :: t ++ t') = (to3 m).toList ++ logged3 t := by
    rw [logged3_append, a8', List.append_nil]
    exact logged3_logged m t
  refine ⟨a1.trans hb.handlers, a2.trans hb.next, a3.trans hb.handlers3, a4.trans hb.next3,
    a5.trans hb.global3, ?_, ?_, ?_, ?_, ?_⟩
  · rw [a6, hb.trace]; simp
  · refine Quiet.append (a := .logged m :: t) ?_ a7
    intro h
    have := hb.quiet h
    simpa using this
  · intro h
    rw [a11, hb.stored h, hh, if_neg (fun x => h x.1)]
  · intro u
    rw [hl, received_append, a9, List.append_nil]
    have := hb.recv u
    show List.Perm (received u t) _
    refine this.trans ?_
    by_cases hu : u ∈ s.handlers
    · simp [hu]
    · simp [hu]
  · intro v
    rw [hl3, received3_append, a10, hh3]
    have := hb.recv3 v
    show List.Perm (received3 v t ++ _) _
    refine (this.append_right _).trans ?_
    by_cases hv : v ∈ s.handlers3
    · simp only [hv, if_true]
      exact List.perm_append_comm
    · simp [hv]

mutual

theorem logMsg_block : ∀ (e : Ev) {s : State}, s.handlers.Nodup → s.handlers3.Nodup →
    (s.logMsg e).dead = false → s.dead = false ∧
    ∃ t, Block s (s.logMsg e) t (fun _ => []) ∧
      ((s.handlers = [] ∨ Flat (.log e)) → ∃ m, logged t = [m]) ∧
      (s.handlers = [] → (s.logMsg e).stored = (s.stored ++ logged t).take (max maxStored s.stored.length))
  | .log m rs, s, hn, hn3, hd => by
    have hd0 : s.dead = false := alive (f := State.logMsg) (fun s a h => logMsg_dead h a) hd
    refine ⟨hd0, ?_⟩
    rw [State.logMsg, if_neg (by simp [hd0])] at hd ⊢
    have hd1 : (deliver (s.emit (.logged m)) m s.handlers rs).dead = false := by
      cases h : (deliver (s.emit (.logged m)) m s.handlers rs).dead with
      | false => rfl
      | true =>
        rw [store_dead h, pass3_dead h] at hd
        unfold State.terminate at hd
        split at hd
        · cases hd
        · rw [h] at hd; cases hd
    have he : s.emit (.logged m) = { s with trace := s.trace ++ [.logged m] } := by
      unfold State.emit; rw [hd0, if_neg (by simp)]
    obtain ⟨_, t, hb, hnil, hflat⟩ := deliver_block rs m s.handlers (s := s.emit (.logged m))
      (by rw [he]; exact hn) (by rw [he]; exact hn3) hn (by rw [he]; exact fun _ h => h) hd1
    obtain ⟨_, t', hb', hl', hst⟩ := block_start hd0 hb hn3 hd1 rfl hd
    refine ⟨_, hb', ?_, ?_⟩
    · intro h
      have hlt : logged t = [] := by
        rcases h with h | h
        · rw [(hnil h).1]; rfl
        · exact hflat h
      exact ⟨m, by rw [logged_append, hl', List.append_nil]; show m :: logged t = [m]; rw [hlt]⟩
    · intro hh
      obtain ⟨ht, hs⟩ := hnil hh
      rw [hst, hs]
      simp only [hh, true_and]
      have hlg : logged (.logged m :: t ++ t') = [m] := by
        rw [logged_append, hl', List.append_nil, ht]; rfl
      rw [hlg, he]
      show (if s.stored.length < maxStored then s.stored ++ [m] else s.stored) = _
      split
      · next h =>
        rw [List.take_of_length_le]
        rw [List.length_append, Nat.max_eq_left (Nat.le_of_lt h)]
        exact h
      · next h =>
        rw [Nat.max_eq_right (by omega), List.take_append_of_le_length (Nat.le_refl _), List.take_length]

theorem deliver_block : ∀ (rs : List (List Ev)) (m : Msg) (hs : List Nat) {s : State},
    s.handlers.Nodup → s.handlers3.Nodup → hs.Nodup → (∀ h ∈ hs, h ∈ s.handlers) →
    (deliver s m hs rs).dead = false → s.dead = false ∧
    ∃ t, Block s (deliver s m hs rs) t (fun u => if u ∈ hs then [m] else []) ∧
      (hs = [] → t = [] ∧ (deliver s m hs rs).stored = s.stored) ∧ (rs = [] → logged t = [])
  | [], m, hs, s, hn, hn3, hns, hsub, hd => by
    have hd0 : s.dead = false := alive (f := fun s rs => deliver s m hs rs)
      (fun s a h => deliver_dead h m a hs) hd
    refine ⟨hd0, ?_⟩
    rw [deliver]
    obtain ⟨t, hb, _, ht⟩ := emitAll_block (m := m) hns hd0
    refine ⟨t, hb, ?_, ?_⟩
    · intro hh
      subst hh
      exact ⟨ht, rfl⟩
    · intro _
      rw [ht]
      simp [logged, List.filterMap_map]
  | r :: rs, m, [], s, hn, hn3, hns, hsub, hd => by
    rw [deliver] at hd ⊢
    refine ⟨hd, [], (Block.nil s).congr (fun u => by simp), fun _ => ⟨rfl, rfl⟩, fun e => nomatch e⟩
  | r :: rs, m, h :: l, s, hn, hn3, hns, hsub, hd => by
    have hd0 : s.dead = false := alive (f := fun s rs => deliver s m (h :: l) rs)
      (fun s a h' => deliver_dead h' m a (h :: l)) hd
    refine ⟨hd0, ?_⟩
    rw [deliver] at hd ⊢
    obtain ⟨g1, g2⟩ := List.nodup_cons.1 hns
    have hb0 := emit_block hd0 h m
    have hd2 : (logAll (s.emit (.deliver h m)) r).dead = false :=
      alive (f := fun s rs => deliver s m l rs) (fun s a h' => deliver_dead h' m a l) hd
    have hhd : h ∈ s.handlers := hsub h (List.mem_cons_self ..)
    obtain ⟨t1, hb1⟩ := logAll_block r (s := s.emit (.deliver h m)) (by rw [hb0.handlers]; exact hn)
      (by rw [hb0.handlers3]; exact hn3)
      (by rw [hb0.handlers]; intro e; rw [e] at hhd; cases hhd) hd2
    have hb01 := hb0.trans hb1
    obtain ⟨_, t2, hb2, _⟩ := deliver_block rs m l (s := logAll (s.emit (.deliver h m)) r)
      (by rw [hb01.handlers]; exact hn) (by rw [hb01.handlers3]; exact hn3) g2
      (by rw [hb01.handlers]; intro x hx; exact hsub x (List.mem_cons_of_mem _ hx)) hd
    refine ⟨_, (hb01.trans hb2).congr ?_, (fun e => nomatch e), fun e => nomatch e⟩
    intro u
    by_cases e : h = u
    · subst e; simp [g1]
    · have : u ≠ h := fun x => e x.symm
      simp [e, this]

theorem logAll_block : ∀ (l : List Ev) {s : State}, s.handlers.Nodup → s.handlers3.Nodup →
    s.handlers ≠ [] → (logAll s l).dead = false →
    ∃ t, Block s (logAll s l) t (fun _ => [])
  | [], s, _, _, _, _ => by rw [logAll]; exact ⟨[], Block.nil s⟩
  | e :: l, s, hn, hn3, hne, hd => by
    rw [logAll] at hd ⊢
    have hd1 : (s.logMsg e).dead = false :=
      alive (f := logAll) (fun s a h => logAll_dead h a) hd
    obtain ⟨_, t, hb, _⟩ := logMsg_block e hn hn3 hd1
    obtain ⟨t', hb'⟩ := logAll_block l (s := s.logMsg e) (by rw [hb.handlers]; exact hn)
      (by rw [hb.handlers3]; exact hn3) (by rw [hb.handlers]; exact hne) hd
    exact ⟨_, (hb.trans hb').congr (fun _ => rfl)⟩

end

end VS.Log
