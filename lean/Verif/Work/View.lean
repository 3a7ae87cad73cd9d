import Verif.Work.Inv

/-!
# What the steps of the scheduler do to the lists that belong to threads
-/

namespace VS.Work

open VS.Pool (Key Graph Outcome Job Answered Event)

variable {F L : Type}

/-- Changes that matter to no thread but the one that makes them. -/
structure Quiet (p p' : Pool.State F L) : Prop where
  next : p.next ≤ p'.next
  ext : ∀ c, c < p.next → (p'.ctx c).external = (p.ctx c).external
  key : ∀ c, c < p.next → (p'.ctx c).key = (p.ctx c).key
  alt : ∀ c ∈ p'.alt, c ∈ p.alt ∨ p.next ≤ c
  ans : ∀ c, Answered p'.trace c ↔ Answered p.trace c

theorem Quiet.refl (p : Pool.State F L) : Quiet p p :=
  ⟨Nat.le_refl _, fun _ _ => rfl, fun _ _ => rfl, fun _ h => .inl h, fun _ => Iff.rfl⟩

theorem Quiet.trans {p q r : Pool.State F L} (h : Quiet p q) (h' : Quiet q r) : Quiet p r :=
  ⟨Nat.le_trans h.next h'.next,
    fun c hc => (h'.ext c (Nat.lt_of_lt_of_le hc h.next)).trans (h.ext c hc),
    fun c hc => (h'.key c (Nat.lt_of_lt_of_le hc h.next)).trans (h.key c hc),
    fun c hc => by
      rcases h'.alt c hc with h1 | h1
      · exact h.alt c h1
      · exact .inr (Nat.le_trans h.next h1),
    fun c => (h'.ans c).trans (h.ans c)⟩

/-- The event is no callback. -/
def plain : Event F → Bool
  | .callback _ _ _ => false
  | _ => true

theorem answered_append {t : List (Event F)} {e : Event F} (h : plain e = true) (c : Nat) :
    Answered (t ++ [e]) c ↔ Answered t c := by
  unfold Answered
  constructor
  · rintro ⟨k, r, hm⟩
    rcases List.mem_append.1 hm with h1 | h1
    · exact ⟨k, r, h1⟩
    · rw [← List.mem_singleton.1 h1] at h; cases h
  · rintro ⟨k, r, hm⟩
    exact ⟨k, r, List.mem_append_left _ hm⟩

theorem endCtx_view (s : Pool.State F L) (c : Nat) (r : Except String F) :
    Quiet s (s.endCtx c r) ∧ (s.endCtx c r).running = s.running ∧ (s.endCtx c r).finished = s.finished ∧
    (s.endCtx c r).returning = (if (s.ctx c).external then [(c, r)] else []) ++ s.returning ∧
    (s.endCtx c r).flush = s.flush := by
  have hl : (s.leave c r).ctx = s.ctx ∧ (s.leave c r).next = s.next ∧ (s.leave c r).alt = s.alt ∧
      (s.leave c r).trace = s.trace ∧ (s.leave c r).running = s.running ∧ (s.leave c r).finished = s.finished ∧
      (s.leave c r).returning = (if (s.ctx c).external then [(c, r)] else []) ++ s.returning ∧
      (s.leave c r).flush = s.flush := by
    unfold Pool.State.leave
    split <;> exact ⟨rfl, rfl, rfl, rfl, rfl, rfl, rfl, rfl⟩
  obtain ⟨l1, l2, l3, l4, l5, l6, l7, l8⟩ := hl
  obtain ⟨n1, n2, n3, n4, n5⟩ := Pool.notifyAll_rest (fun y => y.answer (s.ctx c).key r) (s.ctx c).notify (s.leave c r)
  have key : ∀ s' : Pool.State F L, s'.ctx = ((s.leave c r).notifyAll (fun y => y.answer (s.ctx c).key r) (s.ctx c).notify).ctx →
      s'.next = s.next → s'.alt = s.alt → s'.trace = s.trace ++ [.finish c (s.ctx c).key r] → Quiet s s' := by
    intro s' h1 h2 h3 h4
    refine ⟨Nat.le_of_eq h2.symm, fun x _ => ?_, fun x _ => ?_, fun x hx => .inl (h3 ▸ hx), fun x => ?_⟩
    · rw [h1, (Pool.notifyAll_gets _ _ x _ _).same.external, l1]
    · rw [h1, (Pool.notifyAll_gets _ _ x _ _).same.key, l1]
    · rw [h4, answered_append rfl]
  unfold Pool.State.endCtx
  simp only
  split
  · refine ⟨key _ rfl (n1.next.trans l2) (n1.alt.trans l3) (by show _ ++ _ = _; rw [n5, l4]), n1.running.trans l5, n2.trans l6,
      n3.trans l7, n1.flush.trans l8⟩
  · refine ⟨key _ rfl (n1.next.trans l2) (n1.alt.trans l3) (by show _ ++ _ = _; rw [n5, l4]), n1.running.trans l5, n2.trans l6,
      n3.trans l7, n1.flush.trans l8⟩

theorem attach_view (g : Graph F L) (s : Pool.State F L) (c : Nat) (k : Key) :
    Quiet s (s.attach g c k) ∧ (s.attach g c k).running = s.running ∧ (s.attach g c k).finished = s.finished ∧
    (s.attach g c k).returning = s.returning ∧ (s.attach g c k).flush = s.flush := by
  unfold Pool.State.attach
  split
  · next d _ =>
    refine ⟨⟨Nat.le_refl _, fun x _ => ?_, fun x _ => ?_, fun x hx => .inl hx, fun x => answered_append rfl x⟩, rfl, rfl, rfl,
      rfl⟩
    · by_cases e : x = d
      · subst e
        show (Pool.upd s.ctx x _ x).external = _
        rw [Pool.upd_self]
      · show (Pool.upd s.ctx d _ x).external = _
        rw [Pool.upd_ne _ _ e]
    · by_cases e : x = d
      · subst e
        show (Pool.upd s.ctx x _ x).key = _
        rw [Pool.upd_self]
      · show (Pool.upd s.ctx d _ x).key = _
        rw [Pool.upd_ne _ _ e]
  · refine ⟨⟨Nat.le_succ _, fun x hx => ?_, fun x hx => ?_, fun x hx => .inl hx, fun x => answered_append rfl x⟩, rfl, rfl, rfl,
      rfl⟩
    · show (Pool.upd s.ctx s.next _ x).external = _
      rw [Pool.upd_ne _ _ (Nat.ne_of_lt hx)]
    · show (Pool.upd s.ctx s.next _ x).key = _
      rw [Pool.upd_ne _ _ (Nat.ne_of_lt hx)]

theorem attachAll_view (g : Graph F L) (c : Nat) : ∀ (l : List Key) (s : Pool.State F L),
    Quiet s (s.attachAll g c l) ∧ (s.attachAll g c l).running = s.running ∧
    (s.attachAll g c l).finished = s.finished ∧ (s.attachAll g c l).returning = s.returning ∧
    (s.attachAll g c l).flush = s.flush
  | [], s => ⟨Quiet.refl _, rfl, rfl, rfl, rfl⟩
  | k :: t, s => by
    obtain ⟨a1, a2, a3, a4, a5⟩ := attach_view g s c k
    obtain ⟨b1, b2, b3, b4, b5⟩ := attachAll_view g c t (s.attach g c k)
    exact ⟨a1.trans b1, b2.trans a2, b3.trans a3, b4.trans a4, b5.trans a5⟩

theorem hit_view (s : Pool.State F L) (c : Nat) (f : F) :
    Quiet s (s.hit c f) ∧ (s.hit c f).running = s.running ∧ (s.hit c f).finished = s.finished ∧
    ((s.hit c f).returning.map Prod.fst = if (s.ctx c).external then c :: s.returning.map Prod.fst else
      s.returning.map Prod.fst) ∧ (s.hit c f).flush = s.flush := by
  have hgen : ∀ r, let t := ({ s with tasks := s.tasks.erase c } : Pool.State F L).endCtx c r
      Quiet s t ∧ t.running = s.running ∧ t.finished = s.finished ∧
      (t.returning.map Prod.fst = if (s.ctx c).external then c :: s.returning.map Prod.fst else
        s.returning.map Prod.fst) ∧ t.flush = s.flush := by
    intro r
    simp only
    obtain ⟨h1, h2, h3, h4, h5⟩ := endCtx_view ({ s with tasks := s.tasks.erase c } : Pool.State F L) c r
    refine ⟨⟨h1.next, h1.ext, h1.key, h1.alt, h1.ans⟩, h2, h3, ?_, h5⟩
    rw [h4]
    simp only
    split <;> rfl
  exact hgen _

theorem call_view (g : Graph F L) (s : Pool.State F L) (c : Nat) (serial : Bool) :
    Quiet s (s.call g c serial) ∧ (s.call g c serial).running.map Job.c = c :: s.running.map Job.c ∧
    (s.call g c serial).finished = s.finished ∧ (s.call g c serial).returning = s.returning ∧
    (s.call g c serial).flush = s.flush := by
  unfold Pool.State.call
  simp only
  have key : ∀ (y z : Pool.State F L), y.ctx = s.ctx → y.next = s.next → y.alt = s.alt → y.trace = s.trace →
      y.running.map Job.c = c :: s.running.map Job.c → y.finished = s.finished → y.returning = s.returning →
      y.flush = s.flush →
      z = (if (s.ctx c).reason = .initial then y.setCtx c { s.ctx c with first := false } else y).emit
        (.call c (s.ctx c).key (s.ctx c).reason (s.ctx c).avail) →
      Quiet s z ∧ z.running.map Job.c = c :: s.running.map Job.c ∧ z.finished = s.finished ∧
      z.returning = s.returning ∧ z.flush = s.flush := by
    intro y z h1 h2 h3 h4 h5 h6 h7 h8 hz
    subst hz
    split
    · refine ⟨⟨Nat.le_of_eq h2.symm, fun x _ => ?_, fun x _ => ?_, fun x hx => .inl (h3 ▸ hx), fun x => ?_⟩, h5, h6, h7, h8⟩
      · show (Pool.upd y.ctx c _ x).external = _
        by_cases e : x = c
        · subst e; rw [Pool.upd_self]
        · rw [Pool.upd_ne _ _ e, h1]
      · show (Pool.upd y.ctx c _ x).key = _
        by_cases e : x = c
        · subst e; rw [Pool.upd_self]
        · rw [Pool.upd_ne _ _ e, h1]
      · show Answered (y.trace ++ _) x ↔ _
        rw [h4]; exact answered_append rfl x
    · refine ⟨⟨Nat.le_of_eq h2.symm, fun x _ => ?_, fun x _ => ?_, fun x hx => .inl (h3 ▸ hx), fun x => ?_⟩, h5, h6, h7, h8⟩
      · show (y.ctx x).external = _; rw [h1]
      · show (y.ctx x).key = _; rw [h1]
      · show Answered (y.trace ++ _) x ↔ _
        rw [h4]; exact answered_append rfl x
  refine key _ _ ?_ ?_ ?_ ?_ ?_ ?_ ?_ ?_ rfl <;> (repeat' split) <;> rfl

theorem ret_view (g : Graph F L) (s : Pool.State F L) (c : Nat) (serial : Bool) (o : Outcome F L) :
    Quiet s (s.ret g c serial o) ∧ (s.ret g c serial o).running = s.running.eraseP (fun p => p.c == c) ∧
    (s.ret g c serial o).finished.map Prod.fst = c :: s.finished.map Prod.fst ∧
    (s.ret g c serial o).returning = s.returning ∧ (s.ret g c serial o).flush = s.flush := by
  unfold Pool.State.ret
  simp only
  have key : ∀ (y z : Pool.State F L), y.ctx = Pool.upd s.ctx c ((s.ctx c).after g o) → y.next = s.next →
      y.alt = s.alt → y.trace = s.trace →
      y.running = s.running.eraseP (fun p => p.c == c) → y.finished.map Prod.fst = c :: s.finished.map Prod.fst →
      y.returning = s.returning → y.flush = s.flush →
      z = y.emit (.ret c (s.ctx c).key o.reqs o.err o.frame) →
      Quiet s z ∧ z.running = s.running.eraseP (fun p => p.c == c) ∧
      z.finished.map Prod.fst = c :: s.finished.map Prod.fst ∧ z.returning = s.returning ∧ z.flush = s.flush := by
    intro y z h1 h2 h3 h4 h5 h6 h7 h8 hz
    subst hz
    refine ⟨⟨Nat.le_of_eq h2.symm, fun x _ => ?_, fun x _ => ?_, fun x hx => .inl (h3 ▸ hx), fun x => ?_⟩, h5, h6, h7, h8⟩
    · show (y.ctx x).external = _
      rw [h1]
      by_cases e : x = c
      · subst e; rw [Pool.upd_self]; rfl
      · rw [Pool.upd_ne _ _ e]
    · show (y.ctx x).key = _
      rw [h1]
      by_cases e : x = c
      · subst e; rw [Pool.upd_self]; rfl
      · rw [Pool.upd_ne _ _ e]
    · show Answered (y.trace ++ _) x ↔ _
      rw [h4]; exact answered_append rfl x
  refine key _ _ ?_ ?_ ?_ ?_ ?_ ?_ ?_ ?_ rfl <;> (repeat' split) <;> rfl

theorem complete_view (g : Graph F L) (s : Pool.State F L) (c : Nat) (f : Option F)
    (hd : (s.complete g c f).dead = none) :
    Quiet s (s.complete g c f) ∧ (s.complete g c f).running = s.running ∧
    (s.complete g c f).finished = s.finished.eraseP (fun p => p.1 == c) ∧
    ((s.complete g c f).returning.map Prod.fst = c :: s.returning.map Prod.fst ∨
      (s.complete g c f).returning = s.returning) ∧ (s.complete g c f).flush = s.flush := by
  have hend : ∀ r, let t := ({ s with finished := s.finished.eraseP (fun p => p.1 == c) } : Pool.State F L).endCtx c r
      Quiet s t ∧ t.running = s.running ∧ t.finished = s.finished.eraseP (fun p => p.1 == c) ∧
      (t.returning.map Prod.fst = c :: s.returning.map Prod.fst ∨ t.returning = s.returning) ∧ t.flush = s.flush := by
    intro r
    simp only
    obtain ⟨h1, h2, h3, h4, h5⟩ := endCtx_view
      ({ s with finished := s.finished.eraseP (fun p => p.1 == c) } : Pool.State F L) c r
    refine ⟨⟨h1.next, h1.ext, h1.key, h1.alt, h1.ans⟩, h2, h3, ?_, h5⟩
    rw [h4]
    simp only
    split
    · exact .inl rfl
    · exact .inr rfl
  unfold Pool.State.complete at hd ⊢
  simp only at hd ⊢
  cases hx : (s.ctx c).error with
  | some m => exact hend _
  | none =>
    cases f with
    | some f => exact hend _
    | none =>
      simp only [hx] at hd
      split at hd
      · cases hd
      · next h1 =>
        split at hd
        · cases hd
        · next h2 =>
          simp only
          rw [if_neg h1, if_neg h2]
          obtain ⟨a1, a2, a3, a4, a5⟩ := attachAll_view g c (s.ctx c).reqs
            (({ s with finished := s.finished.eraseP (fun p => p.1 == c) } : Pool.State F L).setCtx c (s.ctx c).wait)
          refine ⟨⟨a1.next, fun x hx => ?_, fun x hx => ?_, a1.alt, a1.ans⟩, a2, a3, .inr a4, a5⟩
          · refine (a1.ext x hx).trans ?_
            show (Pool.upd s.ctx c _ x).external = _
            by_cases e : x = c
            · subst e; rw [Pool.upd_self]; rfl
            · rw [Pool.upd_ne _ _ e]
          · refine (a1.key x hx).trans ?_
            show (Pool.upd s.ctx c _ x).key = _
            by_cases e : x = c
            · subst e; rw [Pool.upd_self]; rfl
            · rw [Pool.upd_ne _ _ e]

theorem request_view (g : Graph F L) (s : Pool.State F L) (k : Key) (b : Bool) :
    Quiet s (s.request g k b) ∧ (s.request g k b).running = s.running ∧
    (s.request g k b).finished = s.finished ∧ (s.request g k b).returning = s.returning ∧
    (s.request g k b).flush = s.flush ∧ (s.request g k b).next = s.next + 1 ∧
    ((s.request g k b).ctx s.next).external = true ∧ ((s.request g k b).ctx s.next).key = k ∧
    (b = true → (s.request g k b).alt = s.alt) := by
  unfold Pool.State.request
  simp only
  have hext : ∀ x, x < s.next → (Pool.upd s.ctx s.next (Pool.Ctx.ext g k (s.counter + 1)) x).external =
      (s.ctx x).external := fun x hx => by rw [Pool.upd_ne _ _ (Nat.ne_of_lt hx)]
  have hkey : ∀ x, x < s.next → (Pool.upd s.ctx s.next (Pool.Ctx.ext g k (s.counter + 1)) x).key =
      (s.ctx x).key := fun x hx => by rw [Pool.upd_ne _ _ (Nat.ne_of_lt hx)]
  have hself : Pool.upd s.ctx s.next (Pool.Ctx.ext g k (s.counter + 1)) s.next = Pool.Ctx.ext g k (s.counter + 1) :=
    Pool.upd_self ..
  split
  · next hb =>
    refine ⟨⟨Nat.le_succ _, hext, hkey, fun x hx => ?_, fun x => answered_append rfl x⟩, rfl, rfl, rfl, rfl, rfl, ?_, ?_, ?_⟩
    · rcases List.mem_append.1 hx with h1 | h1
      · exact .inl h1
      · exact .inr (Nat.le_of_eq (List.mem_singleton.1 h1).symm)
    · show (Pool.upd s.ctx s.next _ s.next).external = true; rw [hself]; rfl
    · show (Pool.upd s.ctx s.next _ s.next).key = k; rw [hself]; rfl
    · intro h; subst h; simp at hb
  · refine ⟨⟨Nat.le_succ _, hext, hkey, fun x hx => .inl hx, fun x => answered_append rfl x⟩, rfl, rfl, rfl, rfl, rfl, ?_, ?_,
      fun _ => rfl⟩
    · show (Pool.upd s.ctx s.next _ s.next).external = true; rw [hself]; rfl
    · show (Pool.upd s.ctx s.next _ s.next).key = k; rw [hself]; rfl

theorem eraseP_perm {α : Type} {p : α → Bool} : ∀ {l : List α} {a : α}, l.find? p = some a →
    l.Perm (a :: l.eraseP p)
  | [], _, h => by cases h
  | x :: t, a, h => by
    by_cases hx : p x
    · rw [List.find?_cons_of_pos hx] at h
      injection h with h
      subst h
      rw [List.eraseP_cons_of_pos hx]
    · rw [List.find?_cons_of_neg hx] at h
      rw [List.eraseP_cons_of_neg hx]
      exact ((eraseP_perm h).cons x).trans (.swap _ _ _)

end VS.Work
