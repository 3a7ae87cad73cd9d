import Verif.Pool.Calls

/-!
# Someone can always go on
-/

namespace VS.Pool

variable {F L : Type}

/-- What holds in addition when the graph has no cycle. -/
structure Edge (g : Graph F L) (rank : Nat → Nat) (s : State F L) : Prop where
  reqs : ∀ c, ∀ q ∈ (s.ctx c).reqs, rank q.1 < rank (s.ctx c).key.1
  owes : ∀ x q d, Owes s x q d → rank q.1 < rank (s.ctx x).key.1
  flush : s.alt ≠ [] → s.flush = true
  alt : ∀ c ∈ s.alt, (s.ctx c).external = true ∧ (s.ctx c).first = true

theorem clamp_node (g : Graph F L) (q : Key) : (g.clamp q).1 = q.1 := by
  unfold Graph.clamp
  split <;> rfl

/-- When nothing runs, a task that is passed over belongs to a frame-state node that another computation
owns. -/
theorem pick_none {g : Graph F L} {s : State F L} {hit : Key → Option F} {full : Key → Bool} (hs : Ser g s)
    (hr : s.running = []) : ∀ (l : List Nat), s.pick g hit full l [] = .none →
    ∀ c ∈ l, ∃ o, s.owner (s.ctx c).key.1 = some o ∧ o ≠ c
  | [], _, c, hc => by cases hc
  | x :: l, h, c, hc => by
    have hmut : s.mutex (s.ctx x).key.1 = false := by
      cases hm : s.mutex (s.ctx x).key.1 with
      | false => rfl
      | true =>
        obtain ⟨j, hj, _⟩ := (hs.mutex _).1 hm
        rw [hr] at hj; cases hj
    unfold State.pick at h
    simp only [hr, List.isEmpty_nil, Bool.not_true, Bool.and_false, Bool.false_eq_true, if_false] at h
    split at h
    · cases h
    · rw [if_neg (fun hx => by cases hx.2)] at h
      split at h
      · next hu =>
        split at h
        · next hb =>
          have hmode : g.mode (s.ctx x).key.1 = .frameState ∧ s.serialFrame (s.ctx x).key.1 ≠ -1 ∧
              s.owner (s.ctx x).key.1 ≠ some x := by
            unfold State.blocked at hb
            simp only [hmut, Bool.false_or, Bool.and_eq_true, beq_iff_eq, bne_iff_ne] at hb
            exact ⟨hb.1.1, hb.1.2, hb.2⟩
          rw [if_neg (fun hx => hx.1 hmode.1)] at h
          rcases List.mem_cons.1 hc with rfl | hc
          · have hsf := hs.sf (s.ctx c).key.1
            cases ho : s.owner (s.ctx c).key.1 with
            | none => rw [ho] at hsf; exact absurd hsf hmode.2.1
            | some o => exact ⟨o, rfl, fun e => hmode.2.2 (by rw [ho, e])⟩
          · exact pick_none hs hr l h c hc
        · cases h
      · cases h

/-- If a worker finds nothing to do and no one is busy, nothing is left. -/
theorem stuck_empty {g : Graph F L} {s : State F L} {rank : Nat → Nat} {hit : Key → Option F} {full : Key → Bool}
    (h : Inv g s) (he : Edge g rank s) (hr : s.running = []) (hf : s.finished = []) (hret : s.returning = [])
    (hp : s.pick g hit full s.tasks [] = .none) : s.tasks = [] ∧ ∀ c, (s.ctx c).pending = 0 := by
  have hown : ∀ c ∈ s.tasks, ∃ o, (s.ctx o).key.1 = (s.ctx c).key.1 ∧ 0 < (s.ctx o).pending := by
    intro c hc
    obtain ⟨o, ho, hne⟩ := pick_none h.ser hr s.tasks hp c hc
    obtain ⟨_, b2, b3⟩ := (h.ser.own _ o).1 ho
    refine ⟨o, b2, ?_⟩
    rcases b3 with b3 | ⟨b3 | b3 | b3, b4⟩ | b3
    · rw [hr] at b3; cases b3
    · obtain ⟨o', ho', hne'⟩ := pick_none h.ser hr s.tasks hp o b3
      rw [b2, ho] at ho'
      injection ho' with ho'
      exact absurd ho' (Ne.symm hne')
    · rw [(he.alt o b3).2] at b4; cases b4
    · exact b3
    · rw [hf] at b3; cases b3.1
  have hpend : ∀ n c, rank (s.ctx c).key.1 = n → (s.ctx c).pending = 0 := by
    intro n
    induction n using Nat.strongRecOn with
    | ind n ih =>
      intro c hn
      refine Nat.eq_zero_of_not_pos (fun hpos => ?_)
      obtain ⟨q, d, ho⟩ := owes_of_pending h.acc hpos
      have hlt := he.owes c q d ho
      rw [hn] at hlt
      have hk := (ho.lt h.acc).2.2
      have hd0 : (s.ctx d).pending = 0 := ih _ hlt d (by rw [hk])
      rcases h.acc.live _ ho.1 with h1 | h1
      · rcases h.acc.mem_lists.1 h1 with h2 | h2 | h2 | h2 | h2
        · obtain ⟨o, e1, e2⟩ := hown d h2
          have := ih _ hlt o (by rw [e1, hk])
          omega
        · have := (he.alt d h2).1
          rw [(h.acc.all_ok _ ho.1).2.2] at this
          cases this
        · rw [hr] at h2; cases h2
        · rw [hf] at h2; cases h2
        · rw [hret] at h2; cases h2
      · simp only at h1; omega
  refine ⟨?_, fun c => hpend _ c rfl⟩
  cases ht : s.tasks with
  | nil => rfl
  | cons c l =>
    obtain ⟨o, _, e2⟩ := hown c (by rw [ht]; exact List.mem_cons_self ..)
    have := hpend _ o rfl
    omega

theorem init_edge (g : Graph F L) (rank : Nat → Nat) : Edge g rank (State.init g) := by
  refine ⟨?_, ?_, ?_, ?_⟩
  · intro c q hq; cases hq
  · intro x q d h; cases h.1
  · intro h; exact absurd rfl h
  · intro c h; cases h

theorem step_edge {g : Graph F L} {s s' : State F L} {rank : Nat → Nat} {a : Action F L}
    (hg : ∀ c k reqs err f, .ret c k reqs err f ∈ s'.trace → ∀ q ∈ reqs, rank q.1 < rank k.1)
    (h : Inv g s) (h' : Acc g s' []) (he : Edge g rank s) (e : Eff g s s' a) : Edge g rank s' := by
  have hend : ∀ d r, EndEff s s' d r → Edge g rank s' := by
    intro d r e'
    refine ⟨?_, ?_, ?_, ?_⟩
    · intro c q hq
      rw [(e'.gets c).same.reqs] at hq
      rw [(e'.gets c).same.key]
      exact he.reqs c q hq
    · intro x q c ho
      rw [(e'.gets x).same.key]
      exact he.owes x q c ⟨((e'.all _).1 ho.1).1, by rw [← (e'.gets c).same.notify]; exact ho.2⟩
    · rw [e'.rest.alt, e'.rest.flush]; exact he.flush
    · rw [e'.rest.alt]
      intro c hc
      rw [(e'.gets c).same.external, (e'.gets c).same.first]
      exact he.alt c hc
  have howes : (¬ ∃ c, WaitEff g s s' c) → ∀ x q d, Owes s' x q d → rank q.1 < rank (s'.ctx x).key.1 := by
    intro hn x q d ho
    rcases eff_owes_new h.acc h' e ho with h1 | h1
    · rw [(eff_key e (h1.lt h.acc).1).1]; exact he.owes x q d h1
    · exact absurd ⟨x, h1.1⟩ hn
  cases hx : e with
  | request k reserve e' =>
    refine ⟨?_, howes ?_, ?_, ?_⟩
    · intro c q hq
      by_cases ec : c = s.next
      · rw [ec, e'.self] at hq; cases hq
      · rw [e'.other c ec] at hq ⊢; exact he.reqs c q hq
    · rintro ⟨c, w⟩
      have := w.finished (c, none)
      rw [e'.finished] at this
      exact (this.1 w.mem).2 rfl
    · rw [e'.flush]
      rcases e'.tasks with ⟨b1, _⟩ | ⟨_, b1, _⟩
      · exact fun _ => b1
      · rw [b1]; exact he.flush
    · intro c hc
      by_cases ec : c = s.next
      · rw [ec, e'.self]; exact ⟨rfl, rfl⟩
      · rw [e'.other c ec]
        refine he.alt c ?_
        rcases e'.tasks with ⟨_, _, b1, _⟩ | ⟨_, b1, _⟩
        · rw [b1] at hc
          exact (List.mem_append.1 hc).resolve_right (fun hx => ec (List.mem_singleton.1 hx))
        · rw [b1] at hc; exact hc
  | setFlush e' => clear hx; subst e'; exact ⟨he.reqs, he.owes, fun _ => rfl, he.alt⟩
  | hit _ _ _ _ e' => exact hend _ _ e'
  | @call _ _ d _ e' =>
    refine ⟨?_, howes ?_, by rw [e'.alt, e'.flush]; exact he.flush, ?_⟩
    · intro c q hq
      by_cases ec : c = d
      · subst ec; rw [e'.self] at hq ⊢; exact he.reqs c q hq
      · rw [e'.other c ec] at hq ⊢; exact he.reqs c q hq
    · rintro ⟨c, w⟩
      have := w.finished (c, none)
      rw [e'.finished] at this
      exact (this.1 w.mem).2 rfl
    · rw [e'.alt]
      intro c hc
      have ec : c ≠ d := fun ec => (h.acc.disj_tasks e'.mem).1 (ec ▸ hc)
      rw [e'.other c ec]; exact he.alt c hc
  | swap hp _ hr hf hret e' =>
    have hempty := stuck_empty h he hr hf hret hp
    clear hx
    subst e'
    refine ⟨he.reqs, he.owes, ?_, ?_⟩
    · intro hne; exact absurd hempty.1 hne
    · intro c hc
      have hc' : c ∈ s.tasks := hc
      rw [hempty.1] at hc'; cases hc'
  | @ret o j e' =>
    have hne : ∀ c, c ≠ j.c → s'.ctx c = s.ctx c := e'.other
    refine ⟨?_, howes ?_, by rw [e'.alt, e'.flush]; exact he.flush, ?_⟩
    · intro c q hq
      by_cases ec : c = j.c
      · subst ec
        rw [e'.self] at hq ⊢
        unfold Ctx.after at hq ⊢
        simp only at hq ⊢
        rcases List.mem_append.1 hq with hq | hq
        · exact he.reqs j.c q hq
        · obtain ⟨q', h1, rfl⟩ := List.mem_map.1 hq
          rw [clamp_node]
          refine hg j.c _ o.reqs o.err o.frame ?_ q' h1
          rw [e'.trace]
          exact List.mem_append_right _ (List.mem_singleton.2 rfl)
      · rw [hne c ec] at hq ⊢; exact he.reqs c q hq
    · rintro ⟨c, w⟩
      have h1 := w.finished (c, none)
      rw [e'.finished] at h1
      exact (h1.1 (List.mem_cons_of_mem _ w.mem)).2 rfl
    · rw [e'.alt]
      intro c hc
      have ec : c ≠ j.c := fun ec => (h.acc.disj_run (List.mem_map.2 ⟨j, e'.mem, rfl⟩)).2.1 (ec ▸ hc)
      rw [hne c ec]; exact he.alt c hc
  | done _ _ e' => exact hend _ _ e'
  | @wait d e' =>
    refine ⟨?_, ?_, by rw [e'.alt, e'.flush]; exact he.flush, ?_⟩
    · intro c q hq
      by_cases hc : c < s.next
      · by_cases ec : c = d
        · subst ec; rw [e'.self.reqs] at hq; cases hq
        · rw [(e'.old c hc ec).reqs] at hq
          rw [(e'.old c hc ec).key]
          exact he.reqs c q hq
      · by_cases hc' : c < s'.next
        · rw [(e'.new c (Nat.not_lt.1 hc) hc').1.reqs] at hq; cases hq
        · rw [h'.blank c (Nat.not_lt.1 hc')] at hq; cases hq
    · intro x q c ho
      rcases eff_owes_new h.acc h' e ho with h1 | h1
      · rw [(eff_key e (h1.lt h.acc).1).1]; exact he.owes x q c h1
      · obtain ⟨es, t1, t2, _, t4⟩ := h1.1.trace
        obtain ⟨q', d', e1, e2, _⟩ := t2 _ (t4 q c ho.1 ho.2)
        injection e1 with _ e1
        subst e1
        rw [(eff_key e (h1.1.lt h.acc)).1]
        exact he.reqs x q e2
    · rw [e'.alt]
      intro c hc
      have hlt := h.acc.lt c (h.acc.mem_lists.2 (.inr (.inl hc)))
      have ec : c ≠ d := by
        rintro rfl
        exact (h.acc.disj_fin (List.mem_map.2 ⟨_, e'.mem, rfl⟩)).2.1 hc
      rw [(e'.old c hlt ec).external, (e'.old c hlt ec).first]
      exact he.alt c hc
  | callback _ e' => clear hx; subst e'; exact ⟨he.reqs, he.owes, he.flush, he.alt⟩

theorem run_edge {g : Graph F L} {rank : Nat → Nat} (hg : g.Acyclic rank) {as : List (Action F L)} {s : State F L}
    (h : Run g as s) (hd : s.dead = none) : Edge g rank s := by
  induction h with
  | nil => exact init_edge g rank
  | @snoc as s s' a h1 h2 h3 ih =>
    have hd0 := (step_cases h3).1
    have hi := run_inv h1 hd0
    exact step_edge (hg _ _ (.snoc h1 h2 h3) hd) hi (step_acc hi.acc h3 hd) (ih hd0) (eff_of_step hi.acc h3 hd)

end VS.Pool
