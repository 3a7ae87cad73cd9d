import Verif.Work.Step3
import Verif.Work.Spec

/-!
# Who sleeps, and when
-/

namespace VS.Work

open VS.Pool (Key Graph Outcome Job Answered Event)

variable {F L : Type}

theorem Sched.run {g : Graph F L} {n : Nat} {P : State F L → Action F L → Prop} {as : List (Action F L)} {s : State F L}
    (h : Sched g n P as s) : Run g n as s := by
  induction h with
  | nil hn => exact .nil hn
  | snoc _ h1 _ h3 ih => exact .snoc ih h1 h3

/-- The scheduler and the invariant in every state. -/
theorem run_held {g : Graph F L} {n : Nat} {as : List (Action F L)} {s : State F L} (h : Run g n as s) :
    (∃ bs, Pool.Run g bs s.pool) ∧ (s.pool.dead = none → WInv s) := by
  induction h with
  | nil hn => exact ⟨⟨[], .nil⟩, fun _ => init_held g hn⟩
  | snoc _ h1 h2 ih =>
    obtain ⟨hd, m⟩ := move_of_step h2
    obtain ⟨⟨bs, hr⟩, hi⟩ := ih
    exact move_inv (hi hd) hr hd h1 m

/-- Nobody may start any of the tasks. -/
def Passed (p : Pool.State F L) : Prop :=
  ∀ c ∈ p.tasks, p.mutex (p.ctx c).key.1 = true ∨ ∃ o, p.owner (p.ctx c).key.1 = some o ∧ o ≠ c

theorem pick_passed {g : Graph F L} {s : Pool.State F L} {hit : Key → Option F} {full : Key → Bool} (hs : Pool.Ser g s)
    (hf : ∀ k, full k = true → s.running = []) : ∀ (l seen : List Nat), (∀ n ∈ seen, s.mutex n = true) →
    s.pick g hit full l seen = .none →
    ∀ c ∈ l, s.mutex (s.ctx c).key.1 = true ∨ ∃ o, s.owner (s.ctx c).key.1 = some o ∧ o ≠ c
  | [], _, _, _, c, hc => by cases hc
  | x :: l, seen, hseen, h, c, hc => by
    unfold Pool.State.pick at h
    simp only at h
    split at h
    · cases h
    · split at h
      · next hx =>
        rcases List.mem_cons.1 hc with rfl | hc
        · exact .inl (hseen _ hx.2)
        · exact pick_passed hs hf l seen hseen h c hc
      · split at h
        · next hfull =>
          simp only [Bool.and_eq_true, Bool.not_eq_true'] at hfull
          rw [hf _ hfull.1] at hfull
          simp at hfull
        · split at h
          · split at h
            · next hb =>
              unfold Pool.State.blocked at hb
              simp only [Bool.or_eq_true, Bool.and_eq_true, beq_iff_eq, bne_iff_ne] at hb
              have hself : s.mutex (s.ctx x).key.1 = true ∨ ∃ o, s.owner (s.ctx x).key.1 = some o ∧ o ≠ x := by
                rcases hb with hb | ⟨⟨_, hb1⟩, hb2⟩
                · exact .inl hb
                · right
                  have hsf := hs.sf (s.ctx x).key.1
                  cases ho : s.owner (s.ctx x).key.1 with
                  | none => rw [ho] at hsf; exact absurd hsf hb1
                  | some o => exact ⟨o, rfl, fun e => hb2 (by rw [ho, e])⟩
              rcases List.mem_cons.1 hc with rfl | hc
              · exact hself
              · refine pick_passed hs hf l _ ?_ h c hc
                intro n hn
                split at hn
                · next hm =>
                  rcases List.mem_append.1 hn with hn | hn
                  · exact hseen n hn
                  · rw [List.mem_singleton.1 hn]
                    rcases hb with hb | ⟨⟨hb0, _⟩, _⟩
                    · exact hb
                    · exact absurd hb0 hm.1
                · exact hseen n hn
            · cases h
          · cases h

/-- If everybody is stuck nothing can be started. -/
def Live (s : State F L) : Prop := s.stop = false → AllStuck s → Passed s.pool

theorem live_of {s : State F L} {w : Worker} (hw : w ∈ s.ws) (hn : ¬ w.stuck s.pool) : Live s :=
  fun _ ha => absurd (ha w hw) hn

theorem not_stuck {p : Pool.State F L} {a : At} (h1 : a ≠ .sleep) (h2 : a ≠ .gone) : ¬ Worker.stuck p ⟨a, none⟩ := by
  rintro (h | h | ⟨c, h, _⟩)
  · exact h1 h
  · exact h2 h
  · cases h

theorem put_live {s : State F L} {i : Nat} {w : Worker} {a : At} (hw : s.ws[i]? = some w) (h1 : a ≠ .sleep)
    (h2 : a ≠ .gone) : Live (s.put i ⟨a, none⟩) :=
  live_of (List.mem_of_getElem? (put_get (w' := ⟨a, none⟩) hw)) (not_stuck h1 h2)

theorem active_live {s : State F L} (h : WInv s) (ha : 0 < s.active) : Live s := by
  intro _ hs
  have := h.stuck_active hs
  omega

theorem after_live {s : State F L} {i : Nat} {over : Bool} (h : WInv s) (hw : s.ws[i]? = some ⟨.scan, none⟩) :
    Live (s.after i over) := by
  have h' := after_held (over := over) h hw
  unfold State.after at h' ⊢
  split at h'
  · next hx =>
    rw [if_pos hx]
    have hgt : s.active > 1 := by
      have := h.mx
      simp only [Bool.or_eq_true, decide_eq_true_eq, Bool.and_eq_true] at hx
      omega
    refine active_live h' ?_
    unfold State.park
    simp only
    split
    · show 0 < s.active - 1; omega
    · split
      · show 0 < s.active - 1 + 1; omega
      · show 0 < s.active - 1; omega
  · next hx =>
    rw [if_neg hx]
    exact live_of (List.mem_of_getElem? hw) (not_stuck (by simp) (by simp))

/-- The worker that found nothing. -/
theorem idle_live {g : Graph F L} {s : State F L} {i : Nat} {hit : Key → Option F} {full : Key → Bool} (_ : WInv s)
    (hser : Pool.Ser g s.pool) (hw : s.ws[i]? = some ⟨.scan, none⟩)
    (hp : s.pool.pick g hit full s.pool.tasks [] = .none)
    (hc : (∃ k, full k = true) → s.pool.running ≠ [] →
      ∃ w ∈ s.ws, ∃ c, w.place = .call c ∧ ∀ e, w.wait = some e → Answered s.pool.trace e) : Live (s.park i) := by
  unfold State.park
  simp only
  split
  · next hst => intro hx; rw [show s.stop = false from hx] at hst; cases hst
  · split
    · refine live_of (w := ⟨.scan, none⟩) ?_ (not_stuck (by simp) (by simp))
      exact List.mem_of_getElem? ((notifyAll_woke s.ws).get hw (by simp))
    · intro _ ha
      refine pick_passed hser (fun k hk => ?_) _ _ (fun n hn => by cases hn) hp
      refine Classical.byContradiction (fun hne => ?_)
      obtain ⟨w, hwm, c, hw1, hw2⟩ := hc ⟨k, hk⟩ hne
      obtain ⟨j, hj⟩ := List.getElem?_of_mem hwm
      have hji : i ≠ j := by
        rintro rfl
        rw [hw] at hj
        injection hj with hj
        subst hj
        cases hw1
      have hj' : (s.ws.set i ⟨.sleep, none⟩)[j]? = some w := by
        rw [List.getElem?_set_ne hji]; exact hj
      rcases ha w (List.mem_of_getElem? hj') with h1 | h1 | ⟨e, h1, h2⟩
      · rw [hw1] at h1; cases h1
      · rw [hw1] at h1; cases h1
      · exact h2 (hw2 e h1)

theorem move_live {g : Graph F L} {s s' : State F L} {a : Action F L} {rank : Nat → Nat} (h : WInv s) (h' : WInv s')
    (hi : Pool.Inv g s.pool) (hl : Live s) (hc : Calm rank s a) (hd' : s'.pool.dead = none) (m : Move g s a s') :
    Live s' := by
  cases m with
  | request k async over who =>
    obtain ⟨v1, _⟩ := request_view g s.pool k false
    split at h'
    · next hf =>
      rw [if_pos hf]
      intro hst ha c hc
      have hold := hl hst (fun w hw => by
        rcases ha w hw with h1 | h1 | ⟨e, h1, h2⟩
        · exact .inl h1
        · exact .inr (.inl h1)
        · exact .inr (.inr ⟨e, h1, fun hx => h2 ((v1.ans e).2 hx)⟩))
      have ht : (s.pool.request g k false).tasks = s.pool.tasks := by
        unfold Pool.State.request
        simp [hf, Pool.State.emit, Pool.State.setCtx]
      have hm : (s.pool.request g k false).mutex = s.pool.mutex ∧ (s.pool.request g k false).owner = s.pool.owner := by
        unfold Pool.State.request
        simp [hf, Pool.State.emit, Pool.State.setCtx]
      have hc : c ∈ (s.pool.request g k false).tasks := hc
      rw [ht] at hc
      have hlt := hi.acc.lt c (hi.acc.mem_lists.2 (.inl hc))
      show (s.pool.request g k false).mutex _ = true ∨ ∃ o, (s.pool.request g k false).owner _ = some o ∧ o ≠ c
      rw [v1.key c hlt, hm.1, hm.2]
      exact hold c hc
    · next hf =>
      rw [if_neg hf]
      have h1 := request_held (g := g) h k _ (inCb_new (as := s.async) (n := s.pool.next) (fun c hc =>
        hi.acc.lt c (hi.acc.mem_lists.2 (.inr (.inr (.inr (.inr (h.ret.mem_iff.1 hc))))))) async)
      exact fun _ ha => absurd ha (wakeThread_live h1 _ _)
  | @block i p k over who hw hm _ _ =>
    have h1 := block_held (g := g) (k := k) h (fun c hc => by
      refine Nat.lt_of_not_le (fun hn => ?_)
      have := (hi.acc.ans_out c hc).1
      rw [hi.acc.blank c hn] at this; cases this) (fun c hc => hi.acc.lt c (hi.acc.mem_lists.2 (.inr (.inl hc)))) hw hm
    exact fun _ ha => absurd ha (wakeThread_live h1 _ _)
  | @unblock i c p hw ha =>
    have h1 := h.wok _ (List.mem_of_getElem? hw) (by simp)
    refine put_live hw ?_ ?_ <;> (rintro rfl; cases h1)
  | idle hw hp => exact idle_live h hi.ser hw hp hc
  | call hw hp => exact put_live (s := { s with pool := _ }) hw (by simp) (by simp)
  | hitExt hw hp hx => exact put_live (s := { s with pool := _ }) hw (by simp) (by simp)
  | @hitInt i c f _ _ over who over' hw hp hx =>
    obtain ⟨v1, v2, v3, v4, v5⟩ := hit_view s.pool c f
    rw [hx] at v4
    simp only [Bool.false_eq_true, if_false] at v4
    have h1 : WInv ({ s with pool := s.pool.hit c f } : State F L) := by
      have := h.quiet (as := s.async) v1 (by rw [v2]) (by rw [v3]) v4 v5 (fun _ _ => rfl)
      exact this
    have h2 := wakes_of ({ s with pool := s.pool.hit c f } : State F L) over who
      ((s.pool.hit c f).tasks.length + 1 - s.pool.tasks.length)
    exact after_live (h2.inv h1) (h2.kept.get i _ hw (by simp))
  | ret hw hp => exact put_live (s := { s with pool := _ }) hw (by simp) (by simp)
  | @out i c note fl over who over' p hw hp hdp hlt =>
    have hk := (Wakes.noted ({ s with pool := p } : State F L) note).trans
      (wakes_of ({ s with pool := p, ws := s.noted note } : State F L) over who (p.tasks.length - s.pool.tasks.length))
    exact put_live (hk.kept.get i ⟨.back c, none⟩ hw (by simp)) (by simp) (by simp)
  | @next i c note fl over who over' p hw hp hdp hlt =>
    have hk := (Wakes.noted ({ s with pool := p } : State F L) note).trans
      (wakes_of ({ s with pool := p, ws := s.noted note } : State F L) over who (p.tasks.length - s.pool.tasks.length))
    have hget := hk.kept.get i ⟨.back c, none⟩ hw (by simp)
    exact after_live ((hk.put (w' := ⟨.scan, none⟩) hw (by simp)).inv ((finish_held h hw hp hdp).2 hlt))
      (put_get (w' := ⟨.scan, none⟩) hget)
  | fatal _ _ hd => exact absurd hd' hd
  | enterLock hw hc hk => exact put_live (s := { s with cbLock := _ }) hw (by simp) (by simp)
  | enter hw hc => exact put_live hw (by simp) (by simp)
  | leave hw hq hp => exact put_live (s := { s with pool := _, cbLock := _ }) hw (by simp) (by simp)
  | @resume i c over hw =>
    exact after_live (resume_held h hw) (put_get (w := ⟨.told c, none⟩) (by split <;> exact hw))
  | doze hw hge hst => exact active_live h' (by have := h.mx; show 0 < s.active; omega)
  | wake hw => exact put_live (s := { s with idle := _, active := _ }) hw (by simp) (by simp)
  | spurious hw => exact put_live hw (by simp) (by simp)
  | threads hn => exact hl
  | stop => intro hx; cases hx

/-! ## Who waits for whom -/

/-- Workers wait only in filters, and for lower nodes. -/
def Below (rank : Nat → Nat) (p : Pool.State F L) (l : List Worker) : Prop :=
  ∀ w ∈ l, ∀ c, w.wait = some c → ∃ d, w.place = .call d ∧ rank (p.ctx c).key.1 < rank (p.ctx d).key.1

theorem Below.woke {rank : Nat → Nat} {p : Pool.State F L} {l l' : List Worker} (h : Below rank p l) (w : Woke l l') :
    Below rank p l' := by
  intro v hv c hc
  rcases w.mem hv with h1 | ⟨h1, h2⟩
  · exact h v h1 c hc
  · obtain ⟨d, h3, _⟩ := h _ h2 c hc
    cases h3

theorem Below.set {rank : Nat → Nat} {p : Pool.State F L} {l : List Worker} (h : Below rank p l) (i : Nat) (a : At) :
    Below rank p (l.set i ⟨a, none⟩) := by
  intro v hv c hc
  rcases List.mem_or_eq_of_mem_set hv with h1 | h1
  · exact h v h1 c hc
  · rw [h1] at hc; cases hc

theorem Below.case {rank : Nat → Nat} {s s' : State F L} (h : Below rank s.pool s.ws) (w : WakeCase s s') :
    Below rank s'.pool s'.ws := by
  cases w with
  | same => exact h
  | spawn =>
    intro v hv c hc
    rcases List.mem_append.1 hv with h1 | h1
    · exact h v h1 c hc
    · rw [List.mem_singleton.1 h1] at hc; cases hc
  | woke p => exact h.woke p

theorem Below.wakes {rank : Nat → Nat} {s s' : State F L} (h : Below rank s.pool s.ws) (w : Wakes s s') :
    Below rank s'.pool s'.ws := by
  induction w with
  | refl => exact h
  | step _ w ih => exact ih.case w

theorem Below.pool {rank : Nat → Nat} {s : State F L} {p : Pool.State F L} {g : Graph F L} (h : Below rank s.pool s.ws)
    (hw : WInv s) (hi : Pool.Inv g s.pool)
    (hk : ∀ c, c < s.pool.next → (p.ctx c).key = (s.pool.ctx c).key) : Below rank p s.ws := by
  intro v hv c hc
  obtain ⟨d, h1, h2⟩ := h v hv c hc
  have hclt := hw.wlt c (List.mem_filterMap.2 ⟨v, hv, hc⟩)
  have hd : d ∈ s.pool.running.map Job.c :=
    hw.run.mem_iff.1 (List.mem_filterMap.2 ⟨v, hv, by rw [Worker.callOf, h1]⟩)
  have hdlt := hi.acc.lt d (hi.acc.mem_lists.2 (.inr (.inr (.inl hd))))
  exact ⟨d, h1, by rw [hk c hclt, hk d hdlt]; exact h2⟩

theorem Below.park {rank : Nat → Nat} {s : State F L} (h : Below rank s.pool s.ws) (i : Nat) :
    Below rank (s.park i).pool (s.park i).ws := by
  unfold State.park
  simp only
  split
  · exact h.set i _
  · split
    · exact h.woke (notifyAll_woke _)
    · exact h.set i _

theorem Below.after {rank : Nat → Nat} {s : State F L} (h : Below rank s.pool s.ws) (i : Nat) (over : Bool) :
    Below rank (s.after i over).pool (s.after i over).ws := by
  unfold State.after
  split
  · exact h.park i
  · exact h

theorem move_below {g : Graph F L} {s s' : State F L} {a : Action F L} {rank : Nat → Nat} (h : WInv s)
    (hi : Pool.Inv g s.pool) (hb : Below rank s.pool s.ws) (hc : Calm rank s a) (hd' : s'.pool.dead = none)
    (m : Move g s a s') : Below rank s'.pool s'.ws := by
  cases m with
  | request k async over who =>
    obtain ⟨v1, _⟩ := request_view g s.pool k false
    have h1 := hb.pool h hi v1.key
    split
    · exact h1
    · exact h1.case (s := { s with pool := s.pool.request g k false, async := _ }) (wakeThread_case _ _ _)
  | @block i p k over who hw hm _ _ =>
    obtain ⟨v1, _, _, _, _, _, _, v2, _⟩ := request_view g s.pool k true
    refine Below.case ?_ (wakeThread_case _ _ _)
    intro v hv c hcv
    rcases List.mem_or_eq_of_mem_set hv with h1 | h1
    · exact hb.pool h hi v1.key v h1 c hcv
    · subst h1
      injection hcv with hcv
      subst hcv
      obtain ⟨d, h2, h3⟩ := hc
      rw [hw] at h2
      injection h2 with h2
      injection h2 with h2
      subst h2
      refine ⟨d, rfl, ?_⟩
      have hd : d ∈ s.pool.running.map Job.c :=
        h.run.mem_iff.1 (List.mem_filterMap.2 ⟨_, List.mem_of_getElem? hw, rfl⟩)
      have hdlt := hi.acc.lt d (hi.acc.mem_lists.2 (.inr (.inr (.inl hd))))
      show rank ((s.pool.request g k true).ctx s.pool.next).key.1 < rank ((s.pool.request g k true).ctx d).key.1
      rw [v2, v1.key d hdlt]
      exact h3
  | unblock hw ha => exact hb.set _ _
  | idle hw hp => exact hb.park _
  | @call i c serial _ _ _ _ _ hw hp => exact (hb.pool h hi (call_view g s.pool c serial).1.key).set _ _
  | @hitExt i c f _ _ _ _ _ hw hp hx => exact (hb.pool h hi (hit_view s.pool c f).1.key).set _ _
  | @hitInt i c f _ _ over who over' hw hp hx =>
    have h1 := hb.pool h hi (hit_view s.pool c f).1.key
    exact (h1.wakes (s := { s with pool := s.pool.hit c f }) (wakes_of _ over who _)).after i over'
  | @ret i c o p hw hp =>
    obtain ⟨_, j, hj, rfl⟩ := ret_step hp
    exact (hb.pool h hi (ret_view g s.pool c j.serial o).1.key).set _ _
  | @out i c note fl over who over' p hw hp hdp hlt =>
    obtain ⟨_, q, hq, rfl⟩ := complete_step hp
    have h1 := hb.pool h hi (p := (if fl then { s.pool with flush := true } else s.pool).complete g c q.2)
      (fun x hx => by
        have := (complete_view g _ c q.2 hdp).1.key x (by cases fl <;> exact hx)
        rw [this]
        cases fl <;> rfl)
    exact (h1.wakes (s := { s with pool := _ }) ((Wakes.noted _ note).trans (wakes_of _ over who _))).set _ _
  | @next i c note fl over who over' p hw hp hdp hlt =>
    obtain ⟨_, q, hq, rfl⟩ := complete_step hp
    have h1 := hb.pool h hi (p := (if fl then { s.pool with flush := true } else s.pool).complete g c q.2)
      (fun x hx => by
        have := (complete_view g _ c q.2 hdp).1.key x (by cases fl <;> exact hx)
        rw [this]
        cases fl <;> rfl)
    exact ((h1.wakes (s := { s with pool := _ }) ((Wakes.noted _ note).trans (wakes_of _ over who _))).set _ _).after
      (s := State.put _ _ _) i over'
  | fatal _ _ hd => exact absurd hd' hd
  | enterLock hw hc hk => exact hb.set _ _
  | enter hw hc => exact hb.set _ _
  | leave hw hq hp => exact hb.set _ _
  | @resume i c over hw =>
    refine Below.after (s := State.put _ _ _) ?_ i over
    have : Below rank (if c ∈ s.reserved then { s with active := s.active + 1, reserved := s.reserved.erase c } else s).pool
        (if c ∈ s.reserved then { s with active := s.active + 1, reserved := s.reserved.erase c } else s).ws := by
      split <;> exact hb
    exact this.set _ _
  | doze hw hge hst => exact hb.set _ _
  | wake hw => exact hb.set _ _
  | spurious hw => exact hb.set _ _
  | threads hn => exact hb
  | stop => exact hb.woke (notifyAll_woke _)

theorem sched_live {g : Graph F L} {n : Nat} {rank : Nat → Nat} {as : List (Action F L)} {s : State F L}
    (h : Sched g n (Calm rank) as s) (hd : s.pool.dead = none) : Live s ∧ Below rank s.pool s.ws := by
  induction h with
  | nil hn => exact ⟨fun _ _ c hc => absurd hc (by simp [State.init, Pool.State.init]),
      fun w hw => absurd hw (by simp [State.init])⟩
  | @snoc as s s' a h0 h1 h2 h3 ih =>
    obtain ⟨hd0, m⟩ := move_of_step h3
    obtain ⟨⟨bs, hr⟩, hi⟩ := run_held h0.run
    have hinv := Pool.run_inv hr hd0
    obtain ⟨i1, i2⟩ := ih hd0
    have h' := (run_held (h0.run.snoc h1 h3)).2 hd
    exact ⟨move_live (hi hd0) h' hinv i1 h2 hd m, move_below (hi hd0) hinv i2 h2 hd m⟩

/-- If everybody is stuck, everything is answered. -/
theorem stuck_answered {g : Graph F L} {s : State F L} {rank : Nat → Nat} (h : WInv s) (hi : Pool.Inv g s.pool)
    (he : Pool.Edge g rank s.pool) (hb : Below rank s.pool s.ws) (hst : s.stop = false) (ha : AllStuck s)
    (hp : Passed s.pool) : ∀ c, c < s.pool.next → (s.pool.ctx c).external = true → Answered s.pool.trace c := by
  -- a worker that is somewhere waits in a filter
  have hplace : ∀ w ∈ s.ws, w.place = .sleep ∨ w.place = .gone ∨
      ∃ d e, w.place = .call d ∧ w.wait = some e ∧ ¬ Answered s.pool.trace e := by
    intro w hw
    rcases ha w hw with h1 | h1 | ⟨e, h1, h2⟩
    · exact .inl h1
    · exact .inr (.inl h1)
    · obtain ⟨d, h3, _⟩ := hb w hw e h1
      exact .inr (.inr ⟨d, e, h3, h1, h2⟩)
  have hnil : ∀ f : Worker → Option Nat, (∀ w, (w.place = .sleep ∨ w.place = .gone ∨ ∃ d, w.place = .call d) → f w = none) →
      s.ws.filterMap f = [] := by
    intro f hf
    refine List.filterMap_eq_nil_iff.2 (fun w hw => hf w ?_)
    rcases hplace w hw with h1 | h1 | ⟨d, e, h1, _⟩
    · exact .inl h1
    · exact .inr (.inl h1)
    · exact .inr (.inr ⟨d, h1⟩)
  have hfin : s.pool.finished = [] := by
    have h1 := h.fin
    rw [hnil Worker.backOf (fun w hw => by
      unfold Worker.backOf
      rcases hw with h2 | h2 | ⟨d, h2⟩ <;> rw [h2])] at h1
    exact List.map_eq_nil_iff.1 h1.nil_eq.symm
  have hret : s.pool.returning = [] := by
    have h1 := h.ret
    rw [hnil Worker.outOf (fun w hw => by
      unfold Worker.outOf
      rcases hw with h2 | h2 | ⟨d, h2⟩ <;> rw [h2])] at h1
    exact List.map_eq_nil_iff.1 h1.nil_eq.symm
  have hmain : ∀ m c, rank (s.pool.ctx c).key.1 = m →
      c ∉ s.pool.running.map Job.c ∧ (s.pool.ctx c).pending = 0 ∧ c ∉ s.pool.tasks := by
    intro m
    induction m using Nat.strongRecOn with
    | ind m ih =>
      have hrun : ∀ c, rank (s.pool.ctx c).key.1 = m → c ∉ s.pool.running.map Job.c := by
        intro c hc hx
        obtain ⟨w, hw, hw1⟩ := List.mem_filterMap.1 (h.run.mem_iff.2 hx)
        have hwc : w.place = .call c := by
          unfold Worker.callOf at hw1
          split at hw1
          · next d hd => injection hw1 with hw1; rw [hd, hw1]
          · cases hw1
        rcases hplace w hw with h1 | h1 | ⟨d, e, h1, h2, h3⟩
        · rw [hwc] at h1; cases h1
        · rw [hwc] at h1; cases h1
        · obtain ⟨d', h4, h5⟩ := hb w hw e h2
          rw [hwc] at h4
          injection h4 with h4
          subst h4
          rw [hc] at h5
          obtain ⟨i1, i2, i3⟩ := ih _ h5 e rfl
          have hem : e ∈ s.ws.filterMap Worker.wait := List.mem_filterMap.2 ⟨w, hw, h2⟩
          have hres := h.wres e hem h3
          rcases hi.acc.answered e (h.wlt e hem) (h.wext e hem) with h6 | h6 | h6
          · rcases hi.acc.mem_lists.1 h6 with h7 | h7 | h7 | h7 | h7
            · exact i3 h7
            · exact h.ralt e hres h7
            · exact i1 h7
            · rw [hfin] at h7; cases h7
            · rw [hret] at h7; cases h7
          · omega
          · exact h3 h6
      have hpend : ∀ c, rank (s.pool.ctx c).key.1 = m → (s.pool.ctx c).pending = 0 := by
        intro c hc
        refine Nat.eq_zero_of_not_pos (fun hpos => ?_)
        obtain ⟨q, d, ho⟩ := Pool.owes_of_pending hi.acc hpos
        have hlt := he.owes c q d ho
        rw [hc] at hlt
        have hk := (ho.lt hi.acc).2.2
        obtain ⟨i1, i2, i3⟩ := ih _ hlt d (by rw [hk])
        rcases hi.acc.live _ ho.1 with h1 | h1
        · rcases hi.acc.mem_lists.1 h1 with h2 | h2 | h2 | h2 | h2
          · exact i3 h2
          · have := (he.alt d h2).1
            rw [(hi.acc.all_ok _ ho.1).2.2] at this
            cases this
          · exact i1 h2
          · rw [hfin] at h2; cases h2
          · rw [hret] at h2; cases h2
        · simp only at h1; omega
      intro c hc
      refine ⟨hrun c hc, hpend c hc, fun hx => ?_⟩
      have hmut : ∀ x, (s.pool.ctx x).key.1 = (s.pool.ctx c).key.1 → s.pool.mutex (s.pool.ctx x).key.1 ≠ true := by
        intro x hxc hm
        obtain ⟨j, hj, _, hj2⟩ := (hi.ser.mutex _).1 hm
        exact hrun j.c (by rw [hj2, hxc, hc]) (List.mem_map.2 ⟨j, hj, rfl⟩)
      rcases hp c hx with h1 | ⟨o, h1, h2⟩
      · exact hmut c rfl h1
      · obtain ⟨_, b2, b3⟩ := (hi.ser.own _ o).1 h1
        have hrk : rank (s.pool.ctx o).key.1 = m := by rw [b2, hc]
        rcases b3 with b3 | ⟨b3 | b3 | b3, b4⟩ | b3
        · exact hrun o hrk b3
        · rcases hp o b3 with h3 | ⟨o', h3, h4⟩
          · exact hmut o b2 h3
          · rw [b2, h1] at h3
            injection h3 with h3
            exact h4 h3.symm
        · rw [(he.alt o b3).2] at b4; cases b4
        · have := hpend o hrk; omega
        · rw [hfin] at b3; cases b3.1
  have halt : s.pool.alt = [] := by
    refine Classical.byContradiction (fun hne => ?_)
    obtain ⟨w, hw, hw1⟩ := List.countP_pos_iff.1 (h.flu (he.flush hne) hst)
    rcases hplace w hw with h1 | h1 | ⟨d, e, h1, _⟩
    · rw [Worker.awake, h1] at hw1; cases hw1
    · rw [Worker.awake, h1] at hw1; cases hw1
    · exact (hmain _ d rfl).1 (h.run.mem_iff.1 (List.mem_filterMap.2 ⟨w, hw, by rw [Worker.callOf, h1]⟩))
  intro c hc hx
  obtain ⟨i1, i2, i3⟩ := hmain _ c rfl
  rcases hi.acc.answered c hc hx with h6 | h6 | h6
  · rcases hi.acc.mem_lists.1 h6 with h7 | h7 | h7 | h7 | h7
    · exact absurd h7 i3
    · rw [halt] at h7; cases h7
    · exact absurd h7 i1
    · rw [hfin] at h7; cases h7
    · rw [hret] at h7; cases h7
  · omega
  · exact h6

end VS.Work
