import Verif.Pool.Det

/-!
# Filters that keep to the rules never end the process and always have an answer
-/

namespace VS.Pool

section
variable {F L : Type}

/-- What makes the process end. -/
theorem dead_cause {g : Graph F L} {s s' : State F L} {a : Action F L} (h : s.step g a = some s')
    (hd : s'.dead ≠ none) :
    (∃ (j : Job) (o : Outcome F L), j ∈ s.running ∧ a = .ret j.c o ∧ ((s.ctx j.c).after g o).error.isSome = true ∧
      o.frame.isSome = true) ∨
    (∃ c, (c, none) ∈ s.finished ∧ (s.ctx c).error = none ∧
      ((s.ctx c).reqs = [] ∨ ∃ k ∈ (s.ctx c).reqs, k.2 < 0)) := by
  have hd0 := (step_cases h).1
  cases (step_cases h).2 with
  | request k reserve =>
    have : (s.request g k reserve).dead = s.dead := by
      unfold State.request
      simp only
      split <;> rfl
    rw [this] at hd; exact absurd hd0 hd
  | setFlush => exact absurd hd0 hd
  | hit _ _ _ _ =>
    unfold State.hit at hd
    rw [endCtx_dead] at hd
    exact absurd hd0 hd
  | @call _ _ c serial _ _ _ _ =>
    have : (s.call g c serial).dead = s.dead := by
      unfold State.call
      simp only
      split <;> split <;> split <;> rfl
    rw [this] at hd; exact absurd hd0 hd
  | swap _ _ _ _ _ => exact absurd hd0 hd
  | @ret o j hj =>
    left
    refine ⟨j, o, hj, rfl, ?_⟩
    have key : (((s.ctx j.c).after g o).error.isSome && o.frame.isSome) = true ∨ (s.ret g j.c j.serial o).dead = s.dead := by
      cases hx : ((s.ctx j.c).after g o).error.isSome && o.frame.isSome with
      | true => exact .inl rfl
      | false =>
        right
        unfold State.ret
        simp only [hx]
        simp only [Bool.false_eq_true, if_false]
        split <;> split <;> rfl
    rcases key with key | key
    · simpa using key
    · rw [key] at hd; exact absurd hd0 hd
  | @complete p hp =>
    right
    obtain ⟨c, f⟩ := p
    unfold State.complete at hd
    simp only at hd
    split at hd
    · rw [endCtx_dead] at hd
      exact absurd hd0 hd
    · rw [endCtx_dead] at hd
      exact absurd hd0 hd
    · next hx =>
      refine ⟨c, hp, hx, ?_⟩
      split at hd
      · next h4 => exact .inl h4
      · next h4 =>
        split at hd
        · next h5 =>
          right
          simpa using h5
        · have : (((({ s with finished := s.finished.eraseP (fun q => q.1 == c) } : State F L).setCtx c
              (s.ctx c).wait).attachAll g c (s.ctx c).reqs).sort).dead = s.dead :=
            attachAll_dead g c _ _
          rw [this] at hd; exact absurd hd0 hd
  | @callback p _ => exact absurd hd0 hd

end

variable {F : Type}

/-- All trees of frames with valid numbers keep to the rules. -/
def Program.Fine (P : Program F) : Prop := ∀ k : Key, 0 ≤ k.2 → (P.prog k).Fine P

theorem does_fine {P : Program F} {p : Prog F} {o : Outcome F (Kept F)} (hp : p.Fine P) (hd : p.does o) :
    (o.err = none ∨ o.frame = none) ∧
    (o.frame = none → o.err = none → ∀ ks next, o.loc = some (ks, next) → (Prog.ask ks next).Fine P) := by
  cases hp with
  | done =>
    obtain ⟨h1, h2, h3⟩ := hd
    rw [h2, h3]
    exact ⟨.inl rfl, (fun h => nomatch h)⟩
  | fail =>
    obtain ⟨h1, h2, h3⟩ := hd
    rw [h2, h3]
    exact ⟨.inr rfl, (fun _ h => nomatch h)⟩
  | ask b1 b2 b3 =>
    obtain ⟨h1, h2, h3, h4⟩ := hd
    refine ⟨.inl h2, fun _ _ ks next hl => ?_⟩
    rw [h4] at hl
    injection hl with hl
    injection hl with e1 e2
    subst e1; subst e2
    exact .ask b1 b2 b3

structure Good (P : Program F) (s : State F (Kept F)) : Prop where
  wait : ∀ c, Waiting s c → ∀ ks next, (s.ctx c).loc = some (ks, next) → (Prog.ask ks next).Fine P ∧
    ∀ q ∈ ks, (∃ d, Owes s c (P.last q) d) ∨ (∃ f, (P.last q, f) ∈ (s.ctx c).avail) ∨ (s.ctx c).error.isSome = true
  run : ∀ j ∈ s.running, j.reason = .ready → ∀ ks next, (s.ctx j.c).loc = some (ks, next) → (Prog.ask ks next).Fine P ∧
    ∀ q ∈ ks, ∃ f, (P.last q, f) ∈ (s.ctx j.c).avail
  fin : ∀ c, (c, none) ∈ s.finished → (s.ctx c).error = none → ∀ ks next, (s.ctx c).loc = some (ks, next) →
    (Prog.ask ks next).Fine P

theorem init_good (P : Program F) (rank : Nat → Nat) : Good P (State.init (P.graph rank)) := by
  refine ⟨?_, ?_, ?_⟩
  · rintro c ⟨h1 | h1 | h1, _⟩
    · exact absurd h1 (Nat.lt_irrefl 0)
    · cases h1
    · cases h1
  · intro j h; cases h
  · intro c h; cases h

/-- What a running job leaves behind. -/
theorem ret_good {P : Program F} {rank : Nat → Nat} (hF : P.Fine) {s : State F (Kept F)}
    (hi : Inv (P.graph rank) s) (hg : Good P s)
    {j : Job} (hj : j ∈ s.running) {o : Outcome F (Kept F)}
    (hl : (P.graph rank).filter (s.ctx j.c).key j.reason (s.ctx j.c).loc (s.ctx j.c).avail o) :
    (o.err = none ∨ o.frame = none) ∧ (j.reason = .error → o.frame = none) ∧
    (j.reason ≠ .error → o.frame = none → o.err = none → ∀ ks next, o.loc = some (ks, next) →
      (Prog.ask ks next).Fine P) := by
  obtain ⟨_, hl⟩ := hl
  cases hr : j.reason with
  | initial =>
    rw [hr] at hl
    have hk : 0 ≤ (s.ctx j.c).key.2 := by
      refine hi.ser.nonneg2 _ ?_
      cases hx : (s.ctx j.c).first with
      | false => rfl
      | true =>
        have := hi.acc.first_run _ hx (.inl (List.mem_map.2 ⟨j, hj, rfl⟩))
        rw [(hi.ser.reason j hj).2 this] at hr; cases hr
    obtain ⟨h1, h2⟩ := does_fine (hF _ hk) hl
    exact ⟨h1, (fun h => nomatch h), fun _ => h2⟩
  | ready =>
    rw [hr] at hl
    obtain ⟨ks, next, fs, e1, _, e3⟩ := hl
    have := (hg.run j hj hr ks next e1).1
    cases this with
    | ask b1 b2 b3 =>
      obtain ⟨h1, h2⟩ := does_fine (b3 fs) e3
      exact ⟨h1, (fun h => nomatch h), fun _ => h2⟩
  | error =>
    rw [hr] at hl
    exact ⟨.inr hl.2, fun _ => hl.2, fun hx => absurd rfl hx⟩

theorem step_good {P : Program F} {rank : Nat → Nat} (hF : P.Fine) {s s' : State F (Kept F)}
    {a : Action F (Kept F)} (hi : Inv (P.graph rank) s) (hi' : Inv (P.graph rank) s') (hl : a.legal (P.graph rank) s)
    (hd : Det P rank s) (hg : Good P s) (e : Eff (P.graph rank) s s' a) : Good P s' := by
  have h := hi.acc
  have h' := hi'.acc
  have hret : ∀ j o, RetEff (P.graph rank) s s' j o → a = .ret j.c o →
      (P.graph rank).filter (s.ctx j.c).key j.reason (s.ctx j.c).loc (s.ctx j.c).avail o := by
    rintro j o e' rfl
    exact hl j e'.mem rfl
  have herr : ∀ c, c < s.next → (s'.ctx c).error = none → (s.ctx c).error = none := by
    intro c hc hx
    cases hy : (s.ctx c).error with
    | none => rfl
    | some m => rw [eff_error e hc hy] at hx; cases hx
  refine ⟨?_, ?_, ?_⟩
  · intro c hw ks next hloc
    rcases eff_waiting h h' e hw with h1 | h1
    · have hq := waiting_quiet (g := P.graph rank) h h' h1 hw
      rw [eff_loc e (h1.lt h) hq.2] at hloc
      obtain ⟨b1, b2⟩ := hg.wait c h1 ks next hloc
      refine ⟨b1, fun q hq' => ?_⟩
      rcases b2 q hq' with ⟨d, b⟩ | ⟨f, b⟩ | b
      · rcases eff_owes h e b with b | ⟨r, _, b3, b4⟩
        · exact .inl ⟨d, b⟩
        · cases r with
          | ok f => exact .inr (.inl ⟨f, b3 f rfl⟩)
          | error m => exact .inr (.inr (b4 m rfl))
      · exact .inr (.inl ⟨f, eff_keep h e (h1.lt h) hq.2 b⟩)
      · refine .inr (.inr ?_)
        cases hx : (s.ctx c).error with
        | none => rw [hx] at b; cases b
        | some m => rw [eff_error e (h1.lt h) hx]; rfl
    · have hm : c ∈ s.finished.map Prod.fst := List.mem_map.2 ⟨_, h1.mem, rfl⟩
      have hc := h.lt _ (h.mem_lists.2 (.inr (.inr (.inr (.inl hm)))))
      rw [eff_loc e hc (finished_quiet (g := P.graph rank) h hm).2] at hloc
      refine ⟨hg.fin c h1.mem h1.error ks next hloc, fun q hq => .inl ?_⟩
      obtain ⟨ks', next', ha, hr⟩ := (hd.fin _ h1.mem).2 rfl h1.error
      have e0 := ha.loc
      simp only at e0 hr
      rw [hloc] at e0
      injection e0 with e0
      injection e0 with e0 _
      subst e0
      obtain ⟨es, t1, t2, t3, _⟩ := h1.trace
      obtain ⟨d, hd'⟩ := t3 (P.last q) (by rw [hr]; exact List.mem_map.2 ⟨q, hq, rfl⟩)
      obtain ⟨q', d', e1, _, e3, e4⟩ := t2 _ hd'
      injection e1 with _ e1 e2
      subst e1; subst e2
      exact ⟨d, e3, e4⟩
  · intro j hj hr ks next hloc
    rcases eff_running_new e hj with ⟨h1, h2⟩ | ⟨serial, h1, h2⟩
    · have hc := h.lt _ (h.mem_lists.2 (.inr (.inr (.inl (List.mem_map.2 ⟨j, h1, rfl⟩)))))
      rw [eff_loc e hc h2] at hloc
      obtain ⟨b1, b2⟩ := hg.run j h1 hr ks next hloc
      exact ⟨b1, fun q hq => (b2 q hq).imp fun f hf => eff_keep h e hc h2 hf⟩
    · have hw : Waiting s j.c := ⟨.inr (.inl h1.mem), reason_ready (by rw [← h2]; exact hr)⟩
      have hnr : ∀ (i : Job) (o : Outcome F (Kept F)), RetEff (P.graph rank) s s' i o → i.c ≠ j.c := by
        intro i o e' ei
        exact (h.disj_tasks h1.mem).2.1 (List.mem_map.2 ⟨i, e'.mem, ei⟩)
      rw [eff_loc e (hw.lt h) hnr] at hloc
      obtain ⟨b1, b2⟩ := hg.wait j.c hw ks next hloc
      refine ⟨b1, fun q hq => ?_⟩
      rcases b2 q hq with ⟨d, b⟩ | ⟨f, b⟩ | b
      · have := b.pending h
        have := h.idle j.c (h.mem_lists.2 (.inl h1.mem))
        omega
      · exact ⟨f, eff_keep h e (hw.lt h) hnr b⟩
      · have := reason_error.2 b
        rw [← h2, hr] at this; cases this
  · intro c hc0 hx ks next hloc
    rcases eff_finished e hc0 with h1 | ⟨j, o, h1, h2, h3⟩
    · have hm : c ∈ s.finished.map Prod.fst := List.mem_map.2 ⟨_, h1, rfl⟩
      have hc : c < s.next := h.lt _ (h.mem_lists.2 (.inr (.inr (.inr (.inl hm)))))
      rw [eff_loc e hc (finished_quiet (g := P.graph rank) h hm).2] at hloc
      exact hg.fin c h1 (herr c hc hx) ks next hloc
    · injection h3 with h3 h4
      subst h3
      have hjr : j.c ∈ s.running.map Job.c := List.mem_map.2 ⟨j, h1.mem, rfl⟩
      have hc := h.lt _ (h.mem_lists.2 (.inr (.inr (.inl hjr))))
      obtain ⟨_, _, a3⟩ := ret_good hF hi hg h1.mem (hret j o h1 h2)
      have hx0 := herr _ hc hx
      rw [h1.self] at hx hloc
      unfold Ctx.after at hx hloc
      simp only at hx hloc
      rw [hx0] at hx
      refine a3 ?_ h4.symm (by simpa using hx) ks next hloc
      intro hr
      have := (hi.ser.reason j h1.mem).1 hr
      rw [hx0] at this; cases this

/-- The process never ends by itself. -/
theorem run_good {P : Program F} {rank : Nat → Nat} (hP : P.Acyclic rank) (hF : P.Fine)
    {as : List (Action F (Kept F))} {s : State F (Kept F)} (h : Run (P.graph rank) as s) :
    s.dead = none ∧ Good P s := by
  induction h with
  | nil => exact ⟨rfl, init_good P rank⟩
  | @snoc as s s' a h1 h2 h3 ih =>
    obtain ⟨hd0, hg⟩ := ih
    have hi := run_inv h1 hd0
    have hdet := run_det hP h1 hd0
    have hd : s'.dead = none := by
      refine Classical.byContradiction (fun hd => ?_)
      rcases dead_cause h3 hd with ⟨j, o, b1, b2, b3, b4⟩ | ⟨c, b1, b2, b3⟩
      · subst b2
        obtain ⟨a1, a2, _⟩ := ret_good hF hi hg b1 (h2 j b1 rfl)
        have hre := hi.ser.reason j b1
        unfold Ctx.after at b3
        simp only at b3
        cases hx : (s.ctx j.c).error with
        | some m =>
          rw [a2 (hre.2 (by rw [hx]; rfl))] at b4; cases b4
        | none =>
          rw [hx] at b3
          rcases a1 with a1 | a1
          · rw [a1] at b3; cases b3
          · rw [a1] at b4; cases b4
      · obtain ⟨ks, next, ha, hr⟩ := (hdet.fin _ b1).2 rfl b2
        have hfine := hg.fin c b1 b2 ks next ha.loc
        simp only at hr
        cases hfine with
        | ask f1 f2 f3 =>
          rcases b3 with b3 | ⟨k, b3, b4⟩
          · rw [hr] at b3
            exact f1 (by simpa using b3)
          · rw [hr] at b3
            obtain ⟨q, hq, rfl⟩ := List.mem_map.1 b3
            have := f2 q hq
            omega
    exact ⟨hd, step_good hF hi (run_inv (.snoc h1 h2 h3) hd) h2 hdet hg (eff_of_step hi.acc h3 hd)⟩

theorem collect_some {ev : Key → Option F} : ∀ {ks : List Key}, (∀ q ∈ ks, (ev q).isSome = true) →
    ∃ fs, collect ev ks = some fs
  | [], _ => ⟨[], rfl⟩
  | k :: t, h => by
    obtain ⟨fs, h1⟩ := collect_some (ks := t) (fun q hq => h q (List.mem_cons_of_mem _ hq))
    have h2 := h k (List.mem_cons_self ..)
    cases hk : ev k with
    | none => rw [hk] at h2; cases h2
    | some f => exact ⟨f :: fs, by unfold collect; rw [hk, h1]⟩

end VS.Pool
