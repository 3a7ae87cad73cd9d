import Verif.Pool.Trace4

/-!
# Every call
-/

namespace VS.Pool

variable {F L : Type}

def CallsOK (g : Graph F L) (t : List (Event F)) : Prop :=
  ∀ t1 c k r av t2, t = t1 ++ .call c k r av :: t2 →
    (FirstCall g t1 c k r av ∨ LaterCall g t1 c k r av) ∧ MayStart g t1 c k r ∧
    ∀ q d, .attach c q d ∈ t1 → ∃ r, .finish d q r ∈ t1

theorem clamp_getFrame {g : Graph F L} {q : Key} (h : 0 ≤ (g.clamp q).2) (av : List (Key × F)) :
    g.getFrame av q = av.lookup (g.clamp q) := by
  unfold Graph.getFrame Graph.clamp
  unfold Graph.clamp at h
  by_cases hc : q.2 ≥ g.numFrames q.1
  · rw [if_pos hc] at h ⊢
    simp only at h ⊢
    rw [if_pos ⟨by omega, hc⟩]
  · rw [if_neg hc]
    simp only
    rw [if_neg (fun hx => hc hx.2)]

theorem lookup_of_mem {α : Type} {k : Key} {f : α} : ∀ {l : List (Key × α)}, (k, f) ∈ l →
    ∃ f', l.lookup k = some f' ∧ (k, f') ∈ l
  | [], h => nomatch h
  | (k', f') :: l, h => by
    by_cases e : k = k'
    · subst e
      exact ⟨f', by simp [List.lookup], List.mem_cons_self ..⟩
    · have hm : (k, f) ∈ l := by
        rcases List.mem_cons.1 h with h1 | h1
        · injection h1 with h1; exact absurd h1 e
        · exact h1
      obtain ⟨y, h1, h2⟩ := lookup_of_mem hm
      refine ⟨y, ?_, List.mem_cons_of_mem _ h2⟩
      rw [List.lookup_cons]
      rw [show (k == k') = false by simpa using e]
      exact h1

theorem first_call {g : Graph F L} {s s' : State F L} {c : Nat} {serial : Bool} (h : Acc g s [])
    (t1 : Tr1 g s) (t3 : Tr3 g s) (e : CallEff g s s' c serial) (hf : (s.ctx c).first = true) :
    FirstCall g s.trace c (s.ctx c).key (s.ctx c).reason (s.ctx c).avail := by
  have hlt := first_blank h hf
  refine ⟨?_, t3.fav c hf, ?_⟩
  · intro k r a hx
    by_cases hr : r = .error
    · subst hr; exact (t3.errc c k a hx).1 e.mem
    · rw [t3.calledc c k r a hx hr] at hf; cases hf
  · obtain ⟨_, f2, f3, _⟩ := h.first_ok c hf
    cases he : (s.ctx c).error with
    | none =>
      left
      refine ⟨by unfold Ctx.reason; rw [he, hf]; rfl, fun hx => ?_⟩
      have hext := (t1.ev _ hx).2.2
      rw [he] at f3
      exact requestError_none (f3 hext).symm
    | some m =>
      right
      have hext : (s.ctx c).external = true := by
        cases hx : (s.ctx c).external with
        | true => rfl
        | false => rw [f2 hx] at he; cases he
      refine ⟨by unfold Ctx.reason; rw [he]; rfl, t1.req c hlt hext, ?_⟩
      rw [f3 hext] at he
      exact (requestError_some he).1

theorem later_call {g : Graph F L} {s s' : State F L} {c : Nat} {serial : Bool} (h : Acc g s [])
    (t1 : Tr1 g s) (t2 : Tr2 g s) (t3 : Tr3 g s) (e : CallEff g s s' c serial) (hf : (s.ctx c).first = false) :
    LaterCall g s.trace c (s.ctx c).key (s.ctx c).reason (s.ctx c).avail := by
  obtain ⟨u, reqs, v, h1, h2, h3, h4, h5, h6, h7, h8, h9⟩ := t3.wat c ⟨.inr (.inl e.mem), hf⟩
  have hp0 : (s.ctx c).pending = 0 := h.idle c (h.mem_lists.2 (.inl e.mem))
  have hno : ∀ q d, ¬ Owes s c q d := by
    intro q d ho
    have := ho.pending h
    omega
  have hv : ∀ x, x ∈ v → x ∈ s.trace := by
    intro x hx; rw [h1]; exact List.mem_append_right _ (List.mem_cons_of_mem _ hx)
  refine ⟨u, reqs, v, h1, h2, h3, h4, fun k a hx => (t3.errc c k a hx).1 e.mem, ?_, ?_⟩
  · intro q hq
    obtain ⟨d, hd⟩ := h6 q hq
    rcases (h7 _ d hd).2 with h10 | ⟨r, h10, _⟩
    · exact absurd h10 (hno _ _)
    · exact ⟨d, r, hd, h10⟩
  · cases he : (s.ctx c).error with
    | none =>
      left
      refine ⟨by unfold Ctx.reason; rw [he, hf]; rfl, ?_, ?_⟩
      · intro q hq d res hd hfin
        rcases (h7 _ d hd).2 with h10 | ⟨r, h10, h11, h12⟩
        · exact absurd h10 (hno _ _)
        · have := (finish_unique t1.finOnce (hv _ hfin) (hv _ h10)).2
          subst this
          cases res with
          | ok f => exact ⟨f, rfl⟩
          | error m => have := h12 m rfl; rw [he] at this; cases this
      · intro q hq
        obtain ⟨d, hd⟩ := h6 q hq
        rcases (h7 _ d hd).2 with h10 | ⟨r, h10, h11, h12⟩
        · exact absurd h10 (hno _ _)
        · cases r with
          | error m => have := h12 m rfl; rw [he] at this; cases this
          | ok f =>
            obtain ⟨f', b1, b2⟩ := lookup_of_mem (h11 f rfl)
            obtain ⟨d', b3, b4⟩ := t2.avs c _ f' b2
            exact ⟨f', d', by rw [clamp_getFrame (h5 q hq)]; exact b1, b3, b4⟩
    | some m =>
      right
      refine ⟨by unfold Ctx.reason; rw [he]; rfl, ?_⟩
      obtain ⟨q, d, b1, b2⟩ := h9 m he
      obtain ⟨q', b3, b4⟩ := List.mem_map.1 (h7 q d b1).1
      subst b4
      exact ⟨q', b3, d, m, b1, b2⟩

theorem may_start {g : Graph F L} {s s' : State F L} {c : Nat} {serial : Bool} (h : Acc g s []) (hs : Ser g s)
    (t1 : Tr1 g s) (t3 : Tr3 g s) (e : CallEff g s s' c serial) :
    MayStart g s.trace c (s.ctx c).key (s.ctx c).reason := by
  intro u c' k' r' a v hsp hk
  have hmem : .call c' k' r' a ∈ s.trace := by rw [hsp]; exact List.mem_append_right _ (List.mem_cons_self ..)
  have hk' : (s.ctx c').key.1 = (s.ctx c).key.1 := by rw [(t1.ev _ hmem).2]; exact hk
  have hopen : (¬ ∃ k q e f, .ret c' k q e f ∈ v) → ∃ j ∈ s.running, j.c = c' ∧ j.reason = r' := by
    intro hn
    exact t3.opn u c' k' r' a v hsp (fun k q er f hx => hn ⟨k, q, er, f, hx⟩)
  have hself : c' = c → ∃ k q e f, .ret c' k q e f ∈ v := by
    intro ec
    refine Classical.byContradiction (fun hn => ?_)
    obtain ⟨j, hj, hjc, _⟩ := hopen hn
    exact (h.disj_tasks e.mem).2.1 (List.mem_map.2 ⟨j, hj, hjc.trans ec⟩)
  -- a running call that holds the mutex
  have hmut : serial = true → (∀ j ∈ s.running, j.c = c' → j.reason = r' → j.serial = true) →
      ∃ k q e f, .ret c' k q e f ∈ v := by
    intro hser hjs
    refine Classical.byContradiction (fun hn => ?_)
    obtain ⟨j, hj, hjc, hjr⟩ := hopen hn
    have : s.mutex (s.ctx c).key.1 = true := (hs.mutex _).2 ⟨j, hj, hjs j hj hjc hjr, by rw [hjc]; exact hk'⟩
    rw [(e.free hser).1] at this
    cases this
  cases hm : g.mode (s.ctx c).key.1 with
  | parallel => exact hself
  | parallelRequests =>
    rintro (ec | ⟨e1, e2⟩)
    · exact hself ec
    · refine hmut ?_ ?_
      · rw [e.useS, hm, reason_ready e1]; rfl
      · intro j hj hjc hjr
        exact hs.job j hj (.inr (.inr ⟨by rw [hjc, hk']; exact hm, hjr.trans e2⟩))
  | unordered =>
    refine hmut ?_ ?_
    · rw [e.useS, hm]; rfl
    · intro j hj hjc hjr
      exact hs.job j hj (.inr (.inl (by rw [hjc, hk']; exact hm)))
  | frameState =>
    refine ⟨hmut ?_ ?_, ?_⟩
    · rw [e.useS, hm]; rfl
    · intro j hj hjc hjr
      exact hs.job j hj (.inl (by rw [hjc, hk']; exact hm))
    · rintro rfl d kd rd ad hd hkd
      refine Classical.byContradiction (fun hne => ?_)
      have hf : (s.ctx c').first = false := by
        refine t3.calledc c' k' r' a hmem ?_
        rintro rfl
        exact (t3.errc c' k' a hmem).1 e.mem
      have ho : s.owner k'.1 = some c' :=
        (hs.own k'.1 c').2 ⟨by rw [hk]; exact hm, by rw [(t1.ev _ hmem).2], .inr (.inl ⟨.inl e.mem, hf⟩)⟩
      exact t3.pair u c' k' r' a v d kd rd ad hsp hd (by rw [hk]; exact hkd) (by rw [hk]; exact hm) hne ho

theorem step_calls {g : Graph F L} {s s' : State F L} {a : Action F L} (h : Acc g s []) (hs : Ser g s)
    (t1 : Tr1 g s) (t2 : Tr2 g s) (t3 : Tr3 g s) (hc : CallsOK g s.trace) (e : Eff g s s' a) :
    CallsOK g s'.trace := by
  intro u c k r av v hsp
  rcases eff_events e with ⟨d, serial, h1⟩ | ⟨j, o, h1⟩ | ⟨es, h1, h2⟩
  · rw [h1.trace] at hsp
    rcases split_one hsp with ⟨w, b1, _⟩ | ⟨b1, _, b3⟩
    · exact hc u c k r av w b1
    · injection b1 with e1 e2 e3 e4
      subst e1; subst e2; subst e3; subst e4; subst b3
      have hat : ∀ q d, .attach c q d ∈ s.trace → ∃ r, .finish d q r ∈ s.trace := by
        intro q d ha
        rcases t2.att c q d ha with ho | ⟨r, hr, _⟩
        · have := ho.pending h
          have := h.idle c (h.mem_lists.2 (.inl h1.mem))
          omega
        · exact ⟨r, hr⟩
      refine ⟨?_, may_start h hs t1 t3 h1, hat⟩
      cases hf : (s.ctx c).first with
      | true => exact .inl (first_call h t1 t3 h1 hf)
      | false => exact .inr (later_call h t1 t2 t3 h1 hf)
  · rw [h1.trace] at hsp
    rcases split_one hsp with ⟨w, b1, _⟩ | ⟨b1, _⟩
    · exact hc u c k r av w b1
    · cases b1
  · rw [h1] at hsp
    rcases split_snoc hsp with ⟨w, b1, _⟩ | b1
    · exact hc u c k r av w b1
    · exact absurd b1 ((h2 c).1 k r av)

structure Inv (g : Graph F L) (s : State F L) : Prop where
  acc : Acc g s []
  ser : Ser g s
  t1 : Tr1 g s
  t2 : Tr2 g s
  t3 : Tr3 g s
  t4 : Tr4 s
  calls : CallsOK g s.trace

/-- Everything above holds in every state of every schedule. -/
theorem run_inv {g : Graph F L} {as : List (Action F L)} {s : State F L} (h : Run g as s) (hd : s.dead = none) :
    Inv g s := by
  obtain ⟨h1, h2, h3, h4, h5, h7, h6⟩ := run_ind
    (P := fun s => Tr1 g s ∧ Tr2 g s ∧ Tr3 g s ∧ Tr4 s ∧ CallsOK g s.trace)
    ⟨init_tr1 g, init_tr2 g, init_tr3 g, init_tr4 g, fun u c k r av v hx => by
      have hx' : ([] : List (Event F)) = _ := hx
      simp at hx'⟩
    (fun s s' a h h' hs hs' _ ⟨p1, p2, p3, p5, p4⟩ e => by
      have q1 := step_tr1 h h' p1 e
      exact ⟨q1, step_tr2 h h' q1 p1 p2 e, step_tr3 h h' hs hs' p1 q1 p3 e, step_tr4 h h' p1 q1 p2 p3 p5 e,
        step_calls h hs p1 p2 p3 p4 e⟩) h hd
  exact ⟨h1, h2, h3, h4, h5, h7, h6⟩

theorem notifyAll_dead (f : Ctx F L → Ctx F L) : ∀ (l : List Nat) (s : State F L), (s.notifyAll f l).dead = s.dead
  | [], _ => rfl
  | c :: l, s => by
    unfold State.notifyAll
    rw [notifyAll_dead f l]
    unfold State.notifyOne
    simp only
    split <;> rfl

theorem endCtx_dead (s : State F L) (c : Nat) (r : Except String F) : (s.endCtx c r).dead = s.dead := by
  have h : ((s.leave c r).notifyAll (fun y => y.answer (s.ctx c).key r) (s.ctx c).notify).dead = s.dead := by
    rw [notifyAll_dead]
    unfold State.leave
    split <;> rfl
  unfold State.endCtx
  simp only
  split
  · exact h
  · exact h

theorem attachAll_dead (g : Graph F L) (c : Nat) : ∀ (l : List Key) (s : State F L), (s.attachAll g c l).dead = s.dead
  | [], _ => rfl
  | k :: l, s => by
    unfold State.attachAll
    rw [attachAll_dead g c l]
    unfold State.attach
    split <;> rfl

/-- A schedule that ends in a fatal error: the last event may be the return of a filter, everything before
happened while all was well. -/
theorem run_before {g : Graph F L} {as : List (Action F L)} {s : State F L} (h : Run g as s) :
    ∃ (as0 : List (Action F L)) (s0 : State F L), Run g as0 s0 ∧ s0.dead = none ∧ (s.dead = none → s0 = s) ∧
      (s.trace = s0.trace ∨ ∃ c k q er f, s.trace = s0.trace ++ [.ret c k q er f]) := by
  cases hd : s.dead with
  | none => exact ⟨as, s, h, hd, fun _ => rfl, .inl rfl⟩
  | some m =>
    cases h with
    | nil => cases hd
    | @snoc as s0 _ a h1 h2 h3 =>
      have hd0 := (step_cases h3).1
      refine ⟨as, s0, h1, hd0, (fun hx => by cases hx), ?_⟩
      cases (step_cases h3).2 with
      | request k reserve =>
        have : (s0.request g k reserve).dead = s0.dead := by
          unfold State.request
          simp only
          split <;> rfl
        rw [this, hd0] at hd; cases hd
      | setFlush => rw [show ({ s0 with flush := true } : State F L).dead = s0.dead from rfl, hd0] at hd; cases hd
      | hit _ _ _ _ =>
        unfold State.hit at hd
        rw [endCtx_dead] at hd
        rw [show ({ s0 with tasks := _ } : State F L).dead = s0.dead from rfl, hd0] at hd; cases hd
      | @call _ _ c serial _ _ _ _ =>
        have : (s0.call g c serial).dead = s0.dead := by
          unfold State.call
          simp only
          split <;> split <;> split <;> rfl
        rw [this, hd0] at hd; cases hd
      | swap _ _ _ _ _ => rw [show s0.swap.dead = s0.dead from rfl, hd0] at hd; cases hd
      | @ret o j hj =>
        right
        refine ⟨j.c, (s0.ctx j.c).key, o.reqs, o.err, o.frame, ?_⟩
        unfold State.ret
        simp only
        split <;> split <;> split <;> rfl
      | @complete p hp =>
        left
        unfold State.complete at hd ⊢
        simp only at hd ⊢
        split at hd
        · rw [endCtx_dead] at hd
          rw [show ({ s0 with finished := _ } : State F L).dead = s0.dead from rfl, hd0] at hd; cases hd
        · rw [endCtx_dead] at hd
          rw [show ({ s0 with finished := _ } : State F L).dead = s0.dead from rfl, hd0] at hd; cases hd
        · next hx hy =>
          split at hd
          · next h4 => rw [if_pos h4]
          · next h4 =>
            split at hd
            · next h5 => rw [if_neg h4, if_pos h5]
            · have : (((({ s0 with finished := s0.finished.eraseP (fun q => q.1 == p.1) } : State F L).setCtx p.1
                  (s0.ctx p.1).wait).attachAll g p.1 (s0.ctx p.1).reqs).sort).dead = s0.dead :=
                attachAll_dead g p.1 _ _
              rw [this, hd0] at hd; cases hd
      | @callback p _ => rw [show (s0.callback p.1 p.2).dead = s0.dead from rfl, hd0] at hd; cases hd

theorem run_alive {g : Graph F L} {as : List (Action F L)} {s : State F L} (h : Run g as s) :
    ∃ s0 : State F L, Inv g s0 ∧ (s.dead = none → s0 = s) ∧
      (s.trace = s0.trace ∨ ∃ c k q er f, s.trace = s0.trace ++ [.ret c k q er f]) := by
  obtain ⟨_, s0, h1, h2, h3⟩ := run_before h
  exact ⟨s0, run_inv h1 h2, h3⟩

end VS.Pool
