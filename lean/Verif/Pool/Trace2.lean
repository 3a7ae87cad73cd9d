import Verif.Pool.Trace

/-!
# Requests between computations, and errors
-/

namespace VS.Pool

variable {F L : Type}

/-- `x` waits for an answer of `d` about `q`. -/
def Owes (s : State F L) (x : Nat) (q : Key) (d : Nat) : Prop := (q, d) ∈ s.all ∧ x ∈ (s.ctx d).notify

theorem Owes.pending {g : Graph F L} {s : State F L} (h : Acc g s []) {x d : Nat} {q : Key} (ho : Owes s x q d) :
    0 < (s.ctx x).pending := by
  have hb := h.bal x
  rw [List.count_nil, Nat.zero_add] at hb
  rw [hb]
  exact owed_ge (ctx := s.ctx) ho.1 ho.2

theorem Owes.lt {g : Graph F L} {s : State F L} (h : Acc g s []) {x d : Nat} {q : Key} (ho : Owes s x q d) :
    x < s.next ∧ d < s.next ∧ (s.ctx d).key = q :=
  ⟨h.lt_of_pending (ho.pending h), (h.all_ok _ ho.1).1, (h.all_ok _ ho.1).2.1⟩

theorem owes_of_pending {g : Graph F L} {s : State F L} (h : Acc g s []) {x : Nat} (hp : 0 < (s.ctx x).pending) :
    ∃ q d, Owes s x q d := by
  have hb := h.bal x
  rw [List.count_nil, Nat.zero_add] at hb
  obtain ⟨e, he, hx⟩ := owed_pos (by rw [← hb]; exact hp)
  exact ⟨e.1, e.2, he, hx⟩

/-- Errors stay. -/
theorem eff_error {g : Graph F L} {s s' : State F L} {a : Action F L} (e : Eff g s s' a) {c : Nat} {m : String}
    (hc : c < s.next) (he : (s.ctx c).error = some m) : (s'.ctx c).error = some m := by
  have hend : ∀ d r, EndEff s s' d r → (s'.ctx c).error = some m := by
    intro d r e'
    rw [(e'.gets c).error]
    cases r with
    | ok f => exact he
    | error m' => simp only; split <;> simp [he]
  cases e with
  | request k reserve e => rw [e.other c (Nat.ne_of_lt hc)]; exact he
  | setFlush e => subst e; exact he
  | hit _ _ _ _ e => exact hend _ _ e
  | @call _ _ d _ e =>
    by_cases ec : c = d
    · subst ec; rw [e.self]; exact he
    · rw [e.other c ec]; exact he
  | swap _ _ _ _ _ e => subst e; exact he
  | @ret o j e =>
    by_cases ec : c = j.c
    · subst ec; rw [e.self]; unfold Ctx.after; rw [he]; rfl
    · rw [e.other c ec]; exact he
  | done _ _ e => exact hend _ _ e
  | @wait d e =>
    by_cases ec : c = d
    · subst ec; rw [e.self.error]; exact he
    · rw [(e.old c hc ec).error]; exact he
  | callback _ e => subst e; exact he

/-- How a new debt arises. -/
theorem eff_owes_new {g : Graph F L} {s s' : State F L} {a : Action F L} (h : Acc g s []) (h' : Acc g s' [])
    (e : Eff g s s' a) {x d : Nat} {q : Key} (ho : Owes s' x q d) :
    Owes s x q d ∨ (WaitEff g s s' x ∧ .attach x q d ∈ s'.trace) := by
  have hend : ∀ c r, EndEff s s' c r → Owes s x q d := by
    intro c r e'
    exact ⟨((e'.all _).1 ho.1).1, by rw [← (e'.gets d).same.notify]; exact ho.2⟩
  cases e with
  | request k reserve e =>
    left
    have h1 : (q, d) ∈ s.all := by rw [← e.all]; exact ho.1
    have h2 := ho.2
    rw [e.other d (Nat.ne_of_lt (h.all_ok _ h1).1)] at h2
    exact ⟨h1, h2⟩
  | setFlush e => subst e; exact .inl ho
  | hit _ _ _ _ e => exact .inl (hend _ _ e)
  | @call _ _ c _ e =>
    left
    have h1 : (q, d) ∈ s.all := by rw [← e.all]; exact ho.1
    have h2 := ho.2
    by_cases ec : d = c
    · rw [ec, e.self] at h2; exact ⟨h1, by rw [ec]; exact h2⟩
    · rw [e.other d ec] at h2; exact ⟨h1, h2⟩
  | swap _ _ _ _ _ e => subst e; exact .inl ho
  | @ret o j e =>
    left
    have h1 : (q, d) ∈ s.all := by rw [← e.all]; exact ho.1
    have h2 := ho.2
    by_cases ec : d = j.c
    · rw [ec, e.self] at h2; exact ⟨h1, by rw [ec]; exact h2⟩
    · rw [e.other d ec] at h2; exact ⟨h1, h2⟩
  | done _ _ e => exact .inl (hend _ _ e)
  | @wait c e =>
    obtain ⟨es, t1, _, _, t4⟩ := e.trace
    by_cases ec : x = c
    · subst ec
      right
      exact ⟨e, by rw [t1]; exact List.mem_append_right _ (t4 q d ho.1 ho.2)⟩
    · left
      rcases e.all _ ho.1 with h1 | ⟨h1, h2⟩
      · have hd : d < s.next := (h.all_ok _ h1).1
        refine ⟨h1, ?_⟩
        by_cases edc : d = c
        · rw [edc] at ho ⊢
          exact (e.self.of_mem ho.2 ec)
        · exact (e.old d hd edc).of_mem ho.2 ec
      · exact absurd ((e.new d h1 h2).1.notify x ho.2) ec
  | callback _ e => subst e; exact .inl ho

theorem eff_owes_att {g : Graph F L} {s s' : State F L} {a : Action F L} (h : Acc g s []) (h' : Acc g s' [])
    (e : Eff g s s' a) {x d : Nat} {q : Key} (ho : Owes s' x q d) :
    Owes s x q d ∨ .attach x q d ∈ s'.trace := by
  exact (eff_owes_new h h' e ho).imp id And.right

/-- How a debt ends. -/
theorem eff_owes {g : Graph F L} {s s' : State F L} {a : Action F L} (h : Acc g s [])
    (e : Eff g s s' a) {x d : Nat} {q : Key} (ho : Owes s x q d) :
    Owes s' x q d ∨ ∃ r, s'.trace = s.trace ++ [.finish d q r] ∧ (∀ f, r = .ok f → (q, f) ∈ (s'.ctx x).avail) ∧
      (∀ m, r = .error m → (s'.ctx x).error.isSome = true) := by
  have hend : ∀ c r, EndEff s s' c r → Owes s' x q d ∨ ∃ r, s'.trace = s.trace ++ [.finish d q r] ∧
      (∀ f, r = .ok f → (q, f) ∈ (s'.ctx x).avail) ∧ (∀ m, r = .error m → (s'.ctx x).error.isSome = true) := by
    intro c r e'
    by_cases ec : d = c
    · subst ec
      right
      have hk : (s.ctx d).key = q := (h.all_ok _ ho.1).2.1
      have hcnt : 0 < (s.ctx d).notify.count x := List.count_pos_iff.2 ho.2
      refine ⟨r, by rw [e'.trace, hk], ?_, ?_⟩
      · rintro f rfl
        rw [(e'.gets x).avail, hk]
        exact List.mem_append_right _ (List.mem_replicate.2 ⟨by omega, rfl⟩)
      · rintro m rfl
        rw [(e'.gets x).error]
        simp only
        rw [if_neg (by omega)]
        rfl
    · left
      exact ⟨(e'.all _).2 ⟨ho.1, ec⟩, by rw [(e'.gets d).same.notify]; exact ho.2⟩
  cases e with
  | request k reserve e =>
    left
    exact ⟨by rw [e.all]; exact ho.1, by rw [e.other d (Nat.ne_of_lt (h.all_ok _ ho.1).1)]; exact ho.2⟩
  | setFlush e => subst e; exact .inl ho
  | hit _ _ _ _ e => exact hend _ _ e
  | @call _ _ c _ e =>
    left
    refine ⟨by rw [e.all]; exact ho.1, ?_⟩
    by_cases ec : d = c
    · rw [ec, e.self]; rw [ec] at ho; exact ho.2
    · rw [e.other d ec]; exact ho.2
  | swap _ _ _ _ _ e => subst e; exact .inl ho
  | @ret o j e =>
    left
    refine ⟨by rw [e.all]; exact ho.1, ?_⟩
    by_cases ec : d = j.c
    · rw [ec, e.self]; rw [ec] at ho; exact ho.2
    · rw [e.other d ec]; exact ho.2
  | done _ _ e => exact hend _ _ e
  | @wait c e =>
    left
    refine ⟨e.sub _ ho.1, ?_⟩
    by_cases ec : d = c
    · rw [ec]; rw [ec] at ho; exact e.self.mem ho.2
    · exact (e.old d (h.all_ok _ ho.1).1 ec).mem ho.2
  | callback _ e => subst e; exact .inl ho

/-- Where available frames come from. -/
theorem eff_avail {g : Graph F L} {s s' : State F L} {a : Action F L} (h : Acc g s []) (h' : Acc g s' [])
    (e : Eff g s s' a) {c : Nat} {q : Key} {f : F} (hm : (q, f) ∈ (s'.ctx c).avail) :
    (q, f) ∈ (s.ctx c).avail ∨ ∃ d, Owes s c q d ∧ s'.trace = s.trace ++ [.finish d q (.ok f)] := by
  have hend : ∀ d r, EndEff s s' d r → (q, f) ∈ (s.ctx c).avail ∨ ∃ d, Owes s c q d ∧
      s'.trace = s.trace ++ [.finish d q (.ok f)] := by
    intro d r e'
    rw [(e'.gets c).avail] at hm
    rcases List.mem_append.1 hm with hm | hm
    · exact .inl hm
    · cases r with
      | error m => cases hm
      | ok y =>
        obtain ⟨h1, h2⟩ := List.mem_replicate.1 hm
        injection h2 with h2 h3
        have hd : c ∈ (s.ctx d).notify := List.count_pos_iff.1 (by omega)
        have hcl := e'.lists h
        refine .inr ⟨d, ⟨?_, hd⟩, by rw [e'.trace, h2, h3]⟩
        rw [h2]
        exact h.mem_all d (h.pending_of_notify hcl hd).2.1 (.inl hcl)
  cases e with
  | request k reserve e =>
    by_cases ec : c = s.next
    · rw [ec, e.self] at hm; cases hm
    · rw [e.other c ec] at hm; exact .inl hm
  | setFlush e => subst e; exact .inl hm
  | hit _ _ _ _ e => exact hend _ _ e
  | @call _ _ d _ e =>
    by_cases ec : c = d
    · subst ec; rw [e.self] at hm; exact .inl hm
    · rw [e.other c ec] at hm; exact .inl hm
  | swap _ _ _ _ _ e => subst e; exact .inl hm
  | @ret o j e =>
    by_cases ec : c = j.c
    · subst ec; rw [e.self] at hm; exact .inl (List.mem_filter.1 hm).1
    · rw [e.other c ec] at hm; exact .inl hm
  | done _ _ e => exact hend _ _ e
  | @wait d e =>
    by_cases hc : c < s.next
    · by_cases ec : c = d
      · subst ec; rw [e.self.avail] at hm; exact .inl hm
      · rw [(e.old c hc ec).avail] at hm; exact .inl hm
    · by_cases hc' : c < s'.next
      · rw [(e.new c (by omega) hc').1.avail] at hm; cases hm
      · rw [h'.blank c (by omega)] at hm; cases hm
  | callback _ e => subst e; exact .inl hm

/-- Where errors come from. -/
theorem eff_error_new {g : Graph F L} {s s' : State F L} {a : Action F L} (h : Acc g s []) (h' : Acc g s' [])
    (e : Eff g s s' a) {c : Nat} {m : String} (hm : (s'.ctx c).error = some m) :
    (s.ctx c).error = some m ∨ (s.next ≤ c ∧ .request c (s'.ctx c).key ∈ s'.trace ∧ g.requestError (s'.ctx c).key = some m) ∨
      (∃ (j : Job) (o : Outcome F L), RetEff g s s' j o ∧ j.c = c ∧ o.err = some m ∧ a = .ret j.c o) ∨
      ∃ q d, Owes s c q d ∧ s'.trace = s.trace ++ [.finish d q (.error m)] := by
  have hend : ∀ d r, EndEff s s' d r → (s.ctx c).error = some m ∨
      ∃ q d, Owes s c q d ∧ s'.trace = s.trace ++ [.finish d q (.error m)] := by
    intro d r e'
    rw [(e'.gets c).error] at hm
    cases r with
    | ok y => exact .inl hm
    | error m' =>
      simp only at hm
      split at hm
      · exact .inl hm
      · next hn =>
        cases he : (s.ctx c).error with
        | some m2 => rw [he] at hm; exact .inl hm
        | none =>
          rw [he] at hm
          simp only [Option.getD_none, Option.some.injEq] at hm
          subst hm
          have hd : c ∈ (s.ctx d).notify := List.count_pos_iff.1 (by omega)
          have hcl := e'.lists h
          exact .inr ⟨(s.ctx d).key, d, ⟨h.mem_all d (h.pending_of_notify hcl hd).2.1 (.inl hcl), hd⟩, e'.trace⟩
  cases e with
  | request k reserve e =>
    by_cases ec : c = s.next
    · rw [ec, e.self] at hm ⊢
      exact .inr (.inl ⟨Nat.le_refl _, by rw [e.trace]; exact List.mem_append_right _ (List.mem_singleton.2 rfl), hm⟩)
    · rw [e.other c ec] at hm; exact .inl hm
  | setFlush e => subst e; exact .inl hm
  | hit _ _ _ _ e =>
    rcases hend _ _ e with h1 | h1
    · exact .inl h1
    · exact .inr (.inr (.inr h1))
  | @call _ _ d _ e =>
    by_cases ec : c = d
    · subst ec; rw [e.self] at hm; exact .inl hm
    · rw [e.other c ec] at hm; exact .inl hm
  | swap _ _ _ _ _ e => subst e; exact .inl hm
  | @ret o j e =>
    by_cases ec : c = j.c
    · subst ec
      rw [e.self] at hm
      unfold Ctx.after at hm
      simp only at hm
      cases hx : (s.ctx j.c).error with
      | some m2 => rw [hx] at hm; exact .inl hm
      | none =>
        rw [hx] at hm
        exact .inr (.inr (.inl ⟨j, o, e, rfl, by simpa using hm, rfl⟩))
    · rw [e.other c ec] at hm; exact .inl hm
  | done _ _ e =>
    rcases hend _ _ e with h1 | h1
    · exact .inl h1
    · exact .inr (.inr (.inr h1))
  | @wait d e =>
    by_cases hc : c < s.next
    · by_cases ec : c = d
      · subst ec; rw [e.self.error] at hm; exact .inl hm
      · rw [(e.old c hc ec).error] at hm; exact .inl hm
    · by_cases hc' : c < s'.next
      · rw [(e.new c (by omega) hc').1.error] at hm; cases hm
      · rw [h'.blank c (by omega)] at hm; cases hm
  | callback _ e => subst e; exact .inl hm

theorem requestError_some {g : Graph F L} {k : Key} {m : String} (h : g.requestError k = some m) :
    ¬ (0 ≤ k.2 ∧ k.2 < g.numFrames k.1) ∧ m = invalidMsg k.2 (g.numFrames k.1) := by
  unfold Graph.requestError at h
  split at h
  · next hc => injection h with h; exact ⟨by omega, h.symm⟩
  · cases h

theorem Cause.mono {g : Graph F L} {t es : List (Event F)} {c : Nat} {k : Key} {m : String} (h : Cause g t c k m) :
    Cause g (t ++ es) c k m := by
  induction h with
  | invalid h1 h2 => exact .invalid (List.mem_append_left _ h1) h2
  | filter h1 => exact .filter (List.mem_append_left _ h1)
  | input h1 h2 _ ih => exact .input (List.mem_append_left _ h1) (List.mem_append_left _ h2) ih

structure Tr2 (g : Graph F L) (s : State F L) : Prop where
  nfy : ∀ x q d, Owes s x q d → .attach x q d ∈ s.trace
  att : ∀ c q d, .attach c q d ∈ s.trace → Owes s c q d ∨ ∃ r, .finish d q r ∈ s.trace ∧
    (∀ m, r = .error m → (s.ctx c).error.isSome = true)
  avs : ∀ c q f, (q, f) ∈ (s.ctx c).avail → ∃ d, .attach c q d ∈ s.trace ∧ .finish d q (.ok f) ∈ s.trace
  org : ∀ c m, (s.ctx c).error = some m → Cause g s.trace c (s.ctx c).key m

theorem init_tr2 (g : Graph F L) : Tr2 g (State.init g) := by
  refine ⟨?_, ?_, ?_, ?_⟩
  · intro x q d h; cases h.1
  · intro c q d h; cases h
  · intro c q f h; cases h
  · intro c m h; cases h

theorem eff_attach_new {g : Graph F L} {s s' : State F L} {a : Action F L} (e : Eff g s s' a) {c d : Nat} {q : Key}
    (hm : .attach c q d ∈ s'.trace) : .attach c q d ∈ s.trace ∨ Owes s' c q d := by
  have hone : ∀ ev, (∀ c q d, ev ≠ .attach c q d) → s'.trace = s.trace ++ [ev] →
      .attach c q d ∈ s.trace ∨ Owes s' c q d := by
    intro ev hev htr
    rw [htr] at hm
    rcases List.mem_append.1 hm with hm | hm
    · exact .inl hm
    · exact absurd (List.mem_singleton.1 hm).symm (hev _ _ _)
  cases e with
  | request k reserve e => exact hone _ (fun _ _ _ => by simp) e.trace
  | setFlush e => subst e; exact .inl hm
  | hit _ _ _ _ e => exact hone _ (fun _ _ _ => by simp) e.trace
  | call e => exact hone _ (fun _ _ _ => by simp) e.trace
  | swap _ _ _ _ _ e => subst e; exact .inl hm
  | ret e => exact hone _ (fun _ _ _ => by simp) e.trace
  | done _ _ e => exact hone _ (fun _ _ _ => by simp) e.trace
  | wait e =>
    obtain ⟨es, t1, t2, _⟩ := e.trace
    rw [t1] at hm
    rcases List.mem_append.1 hm with hm | hm
    · exact .inl hm
    · obtain ⟨q', d', e1, _, e3, e4⟩ := t2 _ hm
      injection e1 with e1 e2 e5
      subst e1; subst e2; subst e5
      exact .inr ⟨e3, e4⟩
  | callback _ e =>
    subst e
    refine hone _ (fun _ _ _ => ?_) rfl
    simp

theorem step_tr2 {g : Graph F L} {s s' : State F L} {a : Action F L} (h : Acc g s []) (h' : Acc g s' [])
    (h1' : Tr1 g s') (ht1 : Tr1 g s) (ht : Tr2 g s) (e : Eff g s s' a) : Tr2 g s' := by
  have hatt := fun c q d hm => eff_attach_new e (c := c) (q := q) (d := d) hm
  refine ⟨?_, ?_, ?_, ?_⟩
  · intro x q d ho
    rcases eff_owes_att h h' e ho with h1 | h1
    · exact eff_mem e (ht.nfy x q d h1)
    · exact h1
  · intro c q d hm
    rcases hatt c q d hm with hm | hm
    · rcases ht.att c q d hm with h1 | ⟨r, h1, h2⟩
      · rcases eff_owes h e h1 with h3 | ⟨r, h3, _, h4⟩
        · exact .inl h3
        · exact .inr ⟨r, by rw [h3]; exact List.mem_append_right _ (List.mem_singleton.2 rfl), h4⟩
      · refine .inr ⟨r, eff_mem e h1, fun m hr => ?_⟩
        have := h2 m hr
        cases he : (s.ctx c).error with
        | none => rw [he] at this; cases this
        | some m' => rw [eff_error e (ht1.ev _ hm).1 he]; rfl
    · exact .inl hm
  · intro c q f hm
    rcases eff_avail h h' e hm with h1 | ⟨d, h1, h2⟩
    · obtain ⟨d, h2, h3⟩ := ht.avs c q f h1
      exact ⟨d, eff_mem e h2, eff_mem e h3⟩
    · exact ⟨d, eff_mem e (ht.nfy c q d h1), by rw [h2]; exact List.mem_append_right _ (List.mem_singleton.2 rfl)⟩
  · intro c m hm
    obtain ⟨es, hes⟩ := eff_trace e
    rcases eff_error_new h h' e hm with h1 | ⟨_, h1, h2⟩ | ⟨j, o, h1, h2, h3, _⟩ | ⟨q, d, h1, h2⟩
    · have hlt : c < s.next := by
        refine Nat.lt_of_not_le (fun hn => ?_)
        rw [h.blank c hn] at h1; cases h1
      rw [(eff_key e hlt).1, hes]
      exact (ht.org c m h1).mono
    · obtain ⟨h3, h4⟩ := requestError_some h2
      rw [h4]
      exact .invalid h1 h3
    · rw [← h2, h1.self, h1.trace]
      refine .filter (q := o.reqs) (f := o.frame) ?_
      rw [← h3]
      exact List.mem_append_right _ (List.mem_singleton.2 rfl)
    · have hf : .finish d q (.error m) ∈ s'.trace := by
        rw [h2]; exact List.mem_append_right _ (List.mem_singleton.2 rfl)
      refine .input (eff_mem e (ht.nfy c q d h1)) hf ?_
      -- the one that failed has the error
      have ho := h1'.over d q _ hf
      have hd := h1.lt h
      have he' : (s'.ctx d).error = some m := ho.2.2.2.2.2.2
      have hk : (s'.ctx d).key = q := (eff_key e hd.2.1).1.trans hd.2.2
      rcases eff_error_new h h' e he' with b1 | ⟨_, b1, b2⟩ | ⟨j, o, b1, b2, b3, _⟩ | ⟨q2, d2, b1, b2⟩
      · rw [← hd.2.2, hes]
        exact (ht.org d m b1).mono
      · obtain ⟨h3, h4⟩ := requestError_some b2
        rw [h4, ← hk]
        exact .invalid b1 h3
      · have := b1.trace
        rw [h2] at this
        have := List.append_cancel_left this
        cases this
      · -- the one that failed was not waiting
        exfalso
        rw [h2] at b2
        have := List.append_cancel_left b2
        injection this with this
        injection this with e1 e2 e3
        subst e1; subst e2
        have p1 := b1.pending h
        have p2 : (s'.ctx d).pending = 0 := ho.2.2.2.2.1
        have hself := (h.all_ok _ b1.1).2.2
        -- `d` waits for itself, so it is not at its end
        cases e with
        | request k reserve e => have := e.trace; rw [h2] at this; cases List.append_cancel_left this
        | setFlush e => subst e; have := congrArg List.length h2; simp at this
        | hit _ _ _ _ e =>
          have := e.trace; rw [h2] at this
          have := List.append_cancel_left this
          injection this with this
          injection this with e1
          subst e1
          exact (h.pending_of_notify (e.lists h) b1.2).2.2 rfl
        | call e => have := e.trace; rw [h2] at this; cases List.append_cancel_left this
        | swap _ _ _ _ _ e => subst e; have := congrArg List.length h2; simp [State.swap] at this
        | ret e => have := e.trace; rw [h2] at this; cases List.append_cancel_left this
        | done _ _ e =>
          have := e.trace; rw [h2] at this
          have := List.append_cancel_left this
          injection this with this
          injection this with e1
          subst e1
          exact (h.pending_of_notify (e.lists h) b1.2).2.2 rfl
        | wait e =>
          obtain ⟨es', t1, t2, _⟩ := e.trace
          rw [h2] at t1
          have := List.append_cancel_left t1
          obtain ⟨_, _, h9, _⟩ := t2 (.finish d q (.error m)) (by rw [← this]; exact List.mem_singleton.2 rfl)
          cases h9
        | @callback p hp e =>
          have : s'.trace = s.trace ++ [.callback p.1 (s.ctx p.1).key p.2] := by subst e; rfl
          rw [h2] at this; cases List.append_cancel_left this

end VS.Pool
