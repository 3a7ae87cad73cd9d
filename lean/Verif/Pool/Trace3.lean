import Verif.Pool.Trace2

/-!
# Calls of one computation
-/

namespace VS.Pool

variable {F L : Type}

/-- The computation waits for frames, or for its next call. -/
def Waiting (s : State F L) (c : Nat) : Prop :=
  (0 < (s.ctx c).pending ∨ c ∈ s.tasks ∨ c ∈ s.alt) ∧ (s.ctx c).first = false

theorem finish_unique {t : List (Event F)} (h : Once Event.finishOf t) {c : Nat} {k k' : Key} {r r' : Except String F}
    (h1 : .finish c k r ∈ t) (h2 : .finish c k' r' ∈ t) : k = k' ∧ r = r' := by
  obtain ⟨u, v, rfl⟩ := List.append_of_mem h1
  have hs := h.split (e := .finish c k r) (c := c) rfl
  rcases List.mem_append.1 h2 with h3 | h3
  · exact absurd rfl (hs.1 _ h3)
  · rcases List.mem_cons.1 h3 with h3 | h3
    · injection h3 with _ h4 h5; exact ⟨h4.symm, h5.symm⟩
    · exact absurd rfl (hs.2 _ h3)

/-- Which calls and returns a step adds. -/
theorem eff_events {g : Graph F L} {s s' : State F L} {a : Action F L} (e : Eff g s s' a) :
    (∃ c serial, CallEff g s s' c serial) ∨ (∃ j o, RetEff g s s' j o) ∨
    ∃ es, s'.trace = s.trace ++ es ∧ ∀ c, NoCall c es ∧ NoRet c es := by
  have hone : ∀ ev : Event F, (∀ c k r a, ev ≠ .call c k r a) → (∀ c k q er f, ev ≠ .ret c k q er f) →
      ∀ c, NoCall c [ev] ∧ NoRet c [ev] := by
    intro ev h1 h2 c
    exact ⟨fun k r a hx => h1 c k r a (List.mem_singleton.1 hx).symm,
      fun k q er f hx => h2 c k q er f (List.mem_singleton.1 hx).symm⟩
  have hnil : ∀ c, NoCall c ([] : List (Event F)) ∧ NoRet c ([] : List (Event F)) :=
    fun c => ⟨(fun _ _ _ h => nomatch h), (fun _ _ _ _ h => nomatch h)⟩
  cases e with
  | request k reserve e => exact .inr (.inr ⟨_, e.trace, hone _ (by simp) (by simp)⟩)
  | setFlush e => subst e; exact .inr (.inr ⟨[], by simp, hnil⟩)
  | hit _ _ _ _ e => exact .inr (.inr ⟨_, e.trace, hone _ (by simp) (by simp)⟩)
  | call e => exact .inl ⟨_, _, e⟩
  | swap _ _ _ _ _ e => subst e; exact .inr (.inr ⟨[], by simp [State.swap], hnil⟩)
  | ret e => exact .inr (.inl ⟨_, _, e⟩)
  | done _ _ e => exact .inr (.inr ⟨_, e.trace, hone _ (by simp) (by simp)⟩)
  | wait e =>
    obtain ⟨es, t1, t2, _⟩ := e.trace
    refine .inr (.inr ⟨es, t1, fun c => ⟨fun k r a hx => ?_, fun k q er f hx => ?_⟩⟩)
    · obtain ⟨_, _, h, _⟩ := t2 _ hx; cases h
    · obtain ⟨_, _, h, _⟩ := t2 _ hx; cases h
  | @callback p hp e =>
    subst e
    exact .inr (.inr ⟨[.callback p.1 (s.ctx p.1).key p.2], rfl, hone _ (by simp) (by simp)⟩)

/-- The events a step adds, for a computation that is neither called nor returned from. -/
theorem eff_quiet {g : Graph F L} {s s' : State F L} {a : Action F L} (e : Eff g s s' a) {c : Nat}
    (h1 : ∀ serial, ¬ CallEff g s s' c serial) (h2 : ∀ j o, RetEff g s s' j o → j.c ≠ c) :
    ∃ es, s'.trace = s.trace ++ es ∧ NoCall c es ∧ NoRet c es := by
  rcases eff_events e with ⟨d, serial, h⟩ | ⟨j, o, h⟩ | ⟨es, h, h3⟩
  · refine ⟨_, h.trace, fun k r a hx => ?_, fun k q er f hx => ?_⟩
    · have := List.mem_singleton.1 hx
      injection this with e1
      subst e1
      exact h1 _ h
    · cases List.mem_singleton.1 hx
  · refine ⟨_, h.trace, fun k r a hx => ?_, fun k q er f hx => ?_⟩
    · cases List.mem_singleton.1 hx
    · have := List.mem_singleton.1 hx
      injection this with e1
      exact h2 j o h e1.symm
  · exact ⟨es, h, h3 c⟩

/-- A computation is called only once. -/
theorem eff_first {g : Graph F L} {s s' : State F L} {a : Action F L} (e : Eff g s s' a) {c : Nat}
    (hc : c < s.next) : (s'.ctx c).first = (s.ctx c).first ∨
      ((s.ctx c).first = true ∧ (s'.ctx c).first = false ∧ ∃ serial, CallEff g s s' c serial) := by
  cases e with
  | request k reserve e => rw [e.other c (Nat.ne_of_lt hc)]; exact .inl rfl
  | setFlush e => subst e; exact .inl rfl
  | hit _ _ _ _ e => exact .inl (e.gets c).same.first
  | @call _ _ d _ e =>
    by_cases ec : c = d
    · subst ec
      cases hf : (s.ctx c).first with
      | false => left; rw [e.self]; simp only [hf, ite_self]
      | true =>
        by_cases hr : (s.ctx c).reason = .initial
        · right
          refine ⟨rfl, ?_, _, e⟩
          rw [e.self]; simp only [hr, if_true]
        · left; rw [e.self]; simp only [hr, if_false, hf]
    · rw [e.other c ec]; exact .inl rfl
  | swap _ _ _ _ _ e => subst e; exact .inl rfl
  | @ret o j e =>
    by_cases ec : c = j.c
    · subst ec; rw [e.self]; exact .inl rfl
    · rw [e.other c ec]; exact .inl rfl
  | done _ _ e => exact .inl (e.gets c).same.first
  | @wait d e =>
    by_cases ec : c = d
    · subst ec; exact .inl e.self.first
    · exact .inl (e.old c hc ec).first
  | callback _ e => subst e; exact .inl rfl

theorem first_blank {g : Graph F L} {s : State F L} (h : Acc g s []) {c : Nat} (hf : (s.ctx c).first = true) :
    c < s.next := by
  refine Nat.lt_of_not_le (fun hn => ?_)
  rw [h.blank c hn] at hf; cases hf

/-- Who waits after a step. -/
theorem eff_queued {g : Graph F L} {s s' : State F L} {a : Action F L} (h : Acc g s [])
    (e : Eff g s s' a) {c : Nat} (hc : c < s.next) (hw : 0 < (s'.ctx c).pending ∨ c ∈ s'.tasks ∨ c ∈ s'.alt) :
    (0 < (s.ctx c).pending ∨ c ∈ s.tasks ∨ c ∈ s.alt) ∨ WaitEff g s s' c := by
  have hend : ∀ d r, EndEff s s' d r → 0 < (s.ctx c).pending ∨ c ∈ s.tasks ∨ c ∈ s.alt := by
    intro d r e'
    rcases hw with h1 | h1 | h1
    · rw [(e'.gets c).pending] at h1; left; omega
    · rcases (e'.tasks c).1 h1 with h2 | h2
      · exact .inr (.inl h2.1)
      · exact .inl (h.pending_of_notify (e'.lists h) h2.1).1
    · rw [e'.rest.alt] at h1; exact .inr (.inr h1)
  cases e with
  | request k reserve e =>
    left
    have ec : c ≠ s.next := Nat.ne_of_lt hc
    rw [e.other c ec] at hw
    rcases hw with h1 | h1 | h1
    · exact .inl h1
    · rcases e.tasks with ⟨_, _, _, b2⟩ | ⟨_, _, b2⟩
      · rw [b2] at h1; exact .inr (.inl h1)
      · rw [b2] at h1
        exact .inr (.inl ((List.mem_append.1 h1).resolve_right (fun hx => ec (List.mem_singleton.1 hx))))
    · rcases e.tasks with ⟨_, _, b2, _⟩ | ⟨_, b2, _⟩
      · rw [b2] at h1
        exact .inr (.inr ((List.mem_append.1 h1).resolve_right (fun hx => ec (List.mem_singleton.1 hx))))
      · rw [b2] at h1; exact .inr (.inr h1)
  | setFlush e => subst e; exact .inl hw
  | hit _ _ _ _ e => exact .inl (hend _ _ e)
  | @call _ _ d _ e =>
    left
    have ec : c ≠ d := by
      rintro rfl
      have hl := h.mem_lists.2 (.inl e.mem)
      rcases hw with h1 | h1 | h1
      · rw [e.self] at h1
        have := h.idle c hl
        simp only at h1
        omega
      · exact ((e.tasks c).1 h1).2 rfl
      · rw [e.alt] at h1; exact (h.disj_tasks e.mem).1 h1
    rw [e.other c ec] at hw
    rcases hw with h1 | h1 | h1
    · exact .inl h1
    · exact .inr (.inl ((e.tasks c).1 h1).1)
    · rw [e.alt] at h1; exact .inr (.inr h1)
  | swap _ _ _ _ _ e =>
    subst e
    refine .inl ?_
    rcases hw with h1 | h1 | h1
    · exact .inl h1
    · exact .inr (.inr h1)
    · exact .inr (.inl h1)
  | @ret o j e =>
    left
    have hjr : j.c ∈ s.running.map Job.c := List.mem_map.2 ⟨_, e.mem, rfl⟩
    have ec : c ≠ j.c := by
      rintro rfl
      have hl := h.mem_lists.2 (.inr (.inr (.inl hjr)))
      rcases hw with h1 | h1 | h1
      · rw [e.self] at h1
        have := h.idle j.c hl
        unfold Ctx.after at h1
        simp only at h1
        omega
      · rw [e.tasks] at h1; exact (h.disj_run hjr).1 h1
      · rw [e.alt] at h1; exact (h.disj_run hjr).2.1 h1
    rw [e.other c ec] at hw
    rw [e.tasks, e.alt] at hw
    exact hw
  | done _ _ e => exact .inl (hend _ _ e)
  | @wait d e =>
    by_cases ec : c = d
    · subst ec; exact .inr e
    · left
      have gr := e.old c hc ec
      rw [gr.pending, e.alt, e.tasks] at hw
      rcases hw with h1 | h1 | h1
      · exact .inl h1
      · rcases h1 with h1 | h1
        · exact .inr (.inl h1)
        · omega
      · exact .inr (.inr h1)
  | callback _ e => subst e; exact .inl hw

/-- New computations have not been called. -/
theorem eff_first_new {g : Graph F L} {s s' : State F L} {a : Action F L} (e : Eff g s s' a) {c : Nat}
    (hc : s.next ≤ c) (hc' : c < s'.next) : (s'.ctx c).first = true := by
  cases e with
  | request k reserve e =>
    rw [e.next] at hc'
    have : c = s.next := by omega
    subst this
    rw [e.self]; rfl
  | setFlush e => subst e; exact absurd hc' (Nat.not_lt.2 hc)
  | hit _ _ _ _ e => rw [e.rest.next] at hc'; omega
  | call e => rw [e.next] at hc'; omega
  | swap _ _ _ _ _ e => subst e; exact absurd hc' (Nat.not_lt.2 hc)
  | ret e => rw [e.next] at hc'; omega
  | done _ _ e => rw [e.rest.next] at hc'; omega
  | wait e => exact (e.new c hc hc').1.first
  | callback _ e => subst e; exact absurd hc' (Nat.not_lt.2 hc)

theorem Waiting.lt {g : Graph F L} {s : State F L} (h : Acc g s []) {c : Nat} (hw : Waiting s c) : c < s.next := by
  rcases hw.1 with h1 | h1 | h1
  · exact h.lt_of_pending h1
  · exact h.lt c (h.mem_lists.2 (.inl h1))
  · exact h.lt c (h.mem_lists.2 (.inr (.inl h1)))

theorem eff_waiting {g : Graph F L} {s s' : State F L} {a : Action F L} (h : Acc g s []) (h' : Acc g s' [])
    (e : Eff g s s' a) {c : Nat} (hw : Waiting s' c) :
    Waiting s c ∨ WaitEff g s s' c := by
  by_cases hc : c < s.next
  · rcases eff_queued h e hc hw.1 with h1 | h1
    · rcases eff_first e hc with h2 | ⟨_, _, _, h2⟩
      · exact .inl ⟨h1, by rw [← h2]; exact hw.2⟩
      · exfalso
        have hr : c ∈ s'.running.map Job.c := by rw [h2.running]; exact List.mem_cons_self ..
        rcases hw.1 with h3 | h3 | h3
        · have := h'.idle c (h'.mem_lists.2 (.inr (.inr (.inl hr)))); omega
        · exact (h'.disj_run hr).1 h3
        · exact (h'.disj_run hr).2.1 h3
    · exact .inr h1
  · have := eff_first_new e (Nat.not_lt.1 hc) (hw.lt h')
    rw [hw.2] at this; cases this

/-- A call has returned and the worker has not gone on. -/
def FData (g : Graph F L) (s : State F L) (c : Nat) (f : Option F) : Prop :=
  ∃ u reqs err v, s.trace = u ++ .ret c (s.ctx c).key reqs err f :: v ∧ NoCall c v ∧ NoRet c v ∧
    (∀ q d, .attach c q d ∉ v) ∧ (s.ctx c).reqs = reqs.map g.clamp ∧ ((s.ctx c).error = none → err = none)

/-- A computation has made requests that are being served. -/
def WData (g : Graph F L) (s : State F L) (c : Nat) : Prop :=
  ∃ u reqs v, s.trace = u ++ .ret c (s.ctx c).key reqs none none :: v ∧ NoCall c v ∧ NoRet c v ∧
    reqs ≠ [] ∧ (∀ q ∈ reqs, 0 ≤ (g.clamp q).2) ∧
    (∀ q ∈ reqs, ∃ d, .attach c (g.clamp q) d ∈ v) ∧
    (∀ q d, .attach c q d ∈ v → q ∈ reqs.map g.clamp ∧ (Owes s c q d ∨ ∃ r, .finish d q r ∈ v ∧
      (∀ f, r = .ok f → (q, f) ∈ (s.ctx c).avail) ∧ (∀ m, r = .error m → (s.ctx c).error.isSome = true))) ∧
    (∀ q d, Owes s c q d → .attach c q d ∈ v) ∧
    (∀ m, (s.ctx c).error = some m → ∃ q d, .attach c q d ∈ v ∧ .finish d q (.error m) ∈ v)

structure Tr3 (g : Graph F L) (s : State F L) : Prop where
  calledc : ∀ c k r a, .call c k r a ∈ s.trace → r ≠ .error → (s.ctx c).first = false
  errc : ∀ c k a, .call c k .error a ∈ s.trace → c ∉ s.tasks ∧ c ∉ s.alt ∧ (s.ctx c).pending = 0 ∧
    (s.ctx c).error.isSome = true
  opn : ∀ t1 c k r a t2, s.trace = t1 ++ .call c k r a :: t2 → NoRet c t2 → ∃ j ∈ s.running, j.c = c ∧ j.reason = r
  pair : ∀ u c k r a v d kd rd ad, s.trace = u ++ .call c k r a :: v → .call d kd rd ad ∈ v → kd.1 = k.1 →
    g.mode k.1 = .frameState → d ≠ c → s.owner k.1 ≠ some c
  fav : ∀ c, (s.ctx c).first = true → (s.ctx c).avail = []
  fin : ∀ p ∈ s.finished, FData g s p.1 p.2
  wat : ∀ c, Waiting s c → WData g s c

theorem init_tr3 (g : Graph F L) : Tr3 g (State.init g) := by
  refine ⟨?_, ?_, ?_, ?_, ?_, ?_, ?_⟩
  · intro c k r a h; cases h
  · intro c k a h; cases h
  · intro t1 c k r a t2 h
    have h' : ([] : List (Event F)) = _ := h
    simp at h'
  · intro u c k r a v d kd rd ad h
    have h' : ([] : List (Event F)) = _ := h
    simp at h'
  · intro c h; cases h
  · intro p h; cases h
  · rintro c ⟨_, h⟩
    rename_i h1
    rcases h1 with h1 | h1 | h1
    · exact absurd h1 (Nat.lt_irrefl _)
    · cases h1
    · cases h1

/-- Splitting a trace that grew. -/
theorem split_snoc {α : Type} {t es u v : List α} {x : α} (h : t ++ es = u ++ x :: v) :
    (∃ w, t = u ++ x :: w ∧ v = w ++ es) ∨ x ∈ es := by
  rcases List.append_eq_append_iff.1 h with ⟨w, h1, h2⟩ | ⟨w, h1, h2⟩
  · right; rw [h2]; exact List.mem_append_right _ (List.mem_cons_self ..)
  · cases w with
    | nil => right; rw [← show x :: v = es by simpa using h2]; exact List.mem_cons_self ..
    | cons y w =>
      injection h2 with h2 h3
      subst h2
      exact .inl ⟨w, h1, h3⟩

theorem NoCall.append {c : Nat} {t es : List (Event F)} (h : NoCall c t) (h' : NoCall c es) : NoCall c (t ++ es) :=
  fun k r a hx => (List.mem_append.1 hx).elim (h k r a) (h' k r a)

theorem NoRet.append {c : Nat} {t es : List (Event F)} (h : NoRet c t) (h' : NoRet c es) : NoRet c (t ++ es) :=
  fun k q e f hx => (List.mem_append.1 hx).elim (h k q e f) (h' k q e f)

/-- Neither a call nor a return of a waiting computation. -/
theorem waiting_quiet {g : Graph F L} {s s' : State F L} (h : Acc g s []) (h' : Acc g s' []) {c : Nat}
    (hw : Waiting s c) (hw' : Waiting s' c) :
    (∀ serial, ¬ CallEff g s s' c serial) ∧ (∀ j o, RetEff g s s' j o → j.c ≠ c) := by
  have h0 : Waiting s' c → c ∉ s'.running.map Job.c := by
    rintro ⟨h1, _⟩ h2
    rcases h1 with h1 | h1 | h1
    · have := h'.idle c (h'.mem_lists.2 (.inr (.inr (.inl h2)))); omega
    · exact (h'.disj_run h2).1 h1
    · exact (h'.disj_run h2).2.1 h1
  have h1 : Waiting s c → c ∉ s.running.map Job.c := by
    rintro ⟨h1, _⟩ h2
    rcases h1 with h1 | h1 | h1
    · have := h.idle c (h.mem_lists.2 (.inr (.inr (.inl h2)))); omega
    · exact (h.disj_run h2).1 h1
    · exact (h.disj_run h2).2.1 h1
  refine ⟨fun serial e => ?_, fun j o e ej => ?_⟩
  · apply h0 hw'
    rw [e.running]
    exact List.mem_cons_self ..
  · apply h1 hw
    exact List.mem_map.2 ⟨j, e.mem, ej⟩

theorem finished_quiet {g : Graph F L} {s s' : State F L} (h : Acc g s []) {c : Nat}
    (hw : c ∈ s.finished.map Prod.fst) :
    (∀ serial, ¬ CallEff g s s' c serial) ∧ (∀ j o, RetEff g s s' j o → j.c ≠ c) := by
  have hd := h.disj_fin hw
  refine ⟨fun serial e => hd.1 e.mem, fun j o e ej => hd.2.2.1 (List.mem_map.2 ⟨j, e.mem, ej⟩)⟩

/-- How the list of returned calls changes. -/
theorem eff_finished {g : Graph F L} {s s' : State F L} {a : Action F L} (e : Eff g s s' a) {p : Nat × Option F}
    (hp : p ∈ s'.finished) : p ∈ s.finished ∨ ∃ j o, RetEff g s s' j o ∧ a = .ret j.c o ∧ p = (j.c, o.frame) := by
  cases e with
  | request k reserve e => rw [e.finished] at hp; exact .inl hp
  | setFlush e => subst e; exact .inl hp
  | hit _ _ _ _ e => exact .inl ((e.finished p).1 hp).1
  | call e => rw [e.finished] at hp; exact .inl hp
  | swap _ _ _ _ _ e => subst e; exact .inl hp
  | ret e =>
    rw [e.finished] at hp
    rcases List.mem_cons.1 hp with hp | hp
    · exact .inr ⟨_, _, e, rfl, hp⟩
    · exact .inl hp
  | done _ _ e => exact .inl ((e.finished p).1 hp).1
  | wait e => exact .inl ((e.finished p).1 hp).1
  | callback _ e => subst e; exact .inl hp

theorem eff_reqs {g : Graph F L} {s s' : State F L} {a : Action F L} (h : Acc g s []) (h' : Acc g s' []) (e : Eff g s s' a)
    {p : Nat × Option F} (hp : p ∈ s.finished) (hp' : p ∈ s'.finished) : (s'.ctx p.1).reqs = (s.ctx p.1).reqs := by
  have hm : p.1 ∈ s.finished.map Prod.fst := List.mem_map.2 ⟨p, hp, rfl⟩
  have hq := finished_quiet (s' := s') (g := g) h hm
  have hlt : p.1 < s.next := h.lt _ (h.mem_lists.2 (.inr (.inr (.inr (.inl hm)))))
  cases e with
  | request k reserve e => rw [e.other _ (Nat.ne_of_lt hlt)]
  | setFlush e => subst e; rfl
  | hit _ _ _ _ e => exact (e.gets p.1).same.reqs
  | @call _ _ d _ e => rw [e.other p.1 (fun ec => hq.1 _ (ec ▸ e))]
  | swap _ _ _ _ _ e => subst e; rfl
  | ret e => rw [e.other p.1 (fun ec => hq.2 _ _ e ec.symm)]
  | done _ _ e => exact (e.gets p.1).same.reqs
  | @wait d e =>
    by_cases ec : p.1 = d
    · exact absurd ec ((e.finished p).1 hp').2
    · exact (e.old p.1 hlt ec).reqs
  | callback _ e => subst e; rfl

/-- What a waiting computation has is kept. -/
theorem eff_keep {g : Graph F L} {s s' : State F L} {a : Action F L} (h : Acc g s []) (e : Eff g s s' a)
    {c : Nat} (hc : c < s.next) (h2 : ∀ j o, RetEff g s s' j o → j.c ≠ c) {x : Key × F} (hx : x ∈ (s.ctx c).avail) :
    x ∈ (s'.ctx c).avail := by
  cases e with
  | request k reserve e => rw [e.other _ (Nat.ne_of_lt hc)]; exact hx
  | setFlush e => subst e; exact hx
  | hit _ _ _ _ e => rw [(e.gets c).avail]; exact List.mem_append_left _ hx
  | @call _ _ d _ e =>
    by_cases ec : c = d
    · subst ec; rw [e.self]; exact hx
    · rw [e.other c ec]; exact hx
  | swap _ _ _ _ _ e => subst e; exact hx
  | ret e => rw [e.other c (fun ec => h2 _ _ e ec.symm)]; exact hx
  | done _ _ e => rw [(e.gets c).avail]; exact List.mem_append_left _ hx
  | @wait d e =>
    by_cases ec : c = d
    · subst ec; rw [e.self.avail]; exact hx
    · rw [(e.old c hc ec).avail]; exact hx
  | callback _ e => subst e; exact hx

theorem eff_attach {g : Graph F L} {s s' : State F L} {a : Action F L} (e : Eff g s s' a) {es : List (Event F)}
    (b1 : s'.trace = s.trace ++ es) {c d : Nat} {q : Key} (hm : .attach c q d ∈ es) : WaitEff g s s' c := by
  have hone : ∀ ev, s'.trace = s.trace ++ [ev] → (∀ c q d, ev ≠ .attach c q d) → False := by
    intro ev he hev
    rw [b1] at he
    have := List.append_cancel_left he
    rw [this] at hm
    exact hev _ _ _ (List.mem_singleton.1 hm).symm
  have hnil : s'.trace = s.trace → False := by
    intro he
    rw [b1] at he
    have : es = [] := by simpa using he
    rw [this] at hm; cases hm
  cases e with
  | request k reserve e => exact (hone _ e.trace (by simp)).elim
  | setFlush e => exact (hnil (by rw [e])).elim
  | hit _ _ _ _ e => exact (hone _ e.trace (by simp)).elim
  | call e => exact (hone _ e.trace (by simp)).elim
  | swap _ _ _ _ _ e => exact (hnil (by rw [e]; rfl)).elim
  | ret e => exact (hone _ e.trace (by simp)).elim
  | done _ _ e => exact (hone _ e.trace (by simp)).elim
  | @wait d' e =>
    obtain ⟨es', t1, t2, _⟩ := e.trace
    rw [b1] at t1
    rw [List.append_cancel_left t1] at hm
    obtain ⟨_, _, e1, _⟩ := t2 _ hm
    injection e1 with e1
    exact e1 ▸ e
  | @callback p hp e => exact (hone (.callback p.1 (s.ctx p.1).key p.2) (by rw [e]; rfl) (by simp)).elim

theorem fdata_mono {g : Graph F L} {s s' : State F L} {a : Action F L} (h : Acc g s []) (h' : Acc g s' [])
    (e : Eff g s s' a) {p : Nat × Option F} (hp : p ∈ s.finished) (hp' : p ∈ s'.finished) (hd : FData g s p.1 p.2) :
    FData g s' p.1 p.2 := by
  obtain ⟨u, reqs, err, v, h1, h2, h3, h6, h4, h5⟩ := hd
  have hm : p.1 ∈ s.finished.map Prod.fst := List.mem_map.2 ⟨p, hp, rfl⟩
  have hlt : p.1 < s.next := h.lt _ (h.mem_lists.2 (.inr (.inr (.inr (.inl hm)))))
  have hq := finished_quiet (s' := s') (g := g) h hm
  obtain ⟨es, b1, b2, b3⟩ := eff_quiet e hq.1 hq.2
  refine ⟨u, reqs, err, v ++ es, ?_, h2.append b2, h3.append b3, ?_, ?_, ?_⟩
  · rw [b1, h1, (eff_key e hlt).1, List.append_assoc, List.cons_append]
  · intro q d hx
    rcases List.mem_append.1 hx with hx | hx
    · exact h6 q d hx
    · exact (((eff_attach e b1 hx).finished p).1 hp').2 rfl
  · rw [eff_reqs h h' e hp hp', h4]
  · intro he
    refine h5 ?_
    cases hx : (s.ctx p.1).error with
    | none => rfl
    | some m => rw [eff_error e hlt hx] at he; cases he

theorem wdata_mono {g : Graph F L} {s s' : State F L} {a : Action F L} (h : Acc g s []) (h' : Acc g s' [])
    (e : Eff g s s' a) {c : Nat} (hw : Waiting s c) (hw' : Waiting s' c) (hd : WData g s c) : WData g s' c := by
  obtain ⟨u, reqs, v, h1, h2, h3, h4, h5, h6, h7, h8, h9⟩ := hd
  have hq := waiting_quiet h h' hw hw'
  have hlt : c < s.next := by
    rcases hw.1 with b | b | b
    · exact h.lt_of_pending b
    · exact h.lt c (h.mem_lists.2 (.inl b))
    · exact h.lt c (h.mem_lists.2 (.inr (.inl b)))
  have hnf : ¬ WaitEff g s s' c := by
    intro e'
    have hm : c ∈ s.finished.map Prod.fst := List.mem_map.2 ⟨_, e'.mem, rfl⟩
    rcases hw.1 with b | b | b
    · have := h.idle c (h.mem_lists.2 (.inr (.inr (.inr (.inl hm))))); omega
    · exact (h.disj_fin hm).1 b
    · exact (h.disj_fin hm).2.1 b
  obtain ⟨es, b1, b2, b3⟩ := eff_quiet e hq.1 hq.2
  have herr : (s.ctx c).error.isSome = true → (s'.ctx c).error.isSome = true := by
    intro he
    cases hx : (s.ctx c).error with
    | none => rw [hx] at he; cases he
    | some m => rw [eff_error e hlt hx]; rfl
  have hnew : ∀ q d, .attach c q d ∈ es → False := fun q d hm => hnf (eff_attach e b1 hm)
  refine ⟨u, reqs, v ++ es, ?_, h2.append b2, h3.append b3, h4, h5, ?_, ?_, ?_, ?_⟩
  · rw [b1, h1, (eff_key e hlt).1, List.append_assoc, List.cons_append]
  · intro q hq'
    obtain ⟨d, hd⟩ := h6 q hq'
    exact ⟨d, List.mem_append_left _ hd⟩
  · intro q d hm
    rcases List.mem_append.1 hm with hm | hm
    · obtain ⟨c1, c2⟩ := h7 q d hm
      refine ⟨c1, ?_⟩
      rcases c2 with c2 | ⟨r, c2, c3, c4⟩
      · rcases eff_owes h e c2 with c5 | ⟨r, c5, c6, c7⟩
        · exact .inl c5
        · right
          refine ⟨r, ?_, c6, c7⟩
          rw [b1] at c5
          rw [List.append_cancel_left c5]
          exact List.mem_append_right _ (List.mem_singleton.2 rfl)
      · exact .inr ⟨r, List.mem_append_left _ c2, fun f hf => eff_keep h e hlt hq.2 (c3 f hf),
          fun m hm => herr (c4 m hm)⟩
    · exact absurd hm (hnew q d)
  · intro q d ho
    rcases eff_owes_new h h' e ho with c1 | c1
    · exact List.mem_append_left _ (h8 q d c1)
    · exact absurd c1.1 hnf
  · intro m hm
    rcases eff_error_new h h' e hm with c1 | ⟨c1, _⟩ | ⟨j, o, c1, c2, _⟩ | ⟨q, d, c1, c2⟩
    · obtain ⟨q, d, c2, c3⟩ := h9 m c1
      exact ⟨q, d, List.mem_append_left _ c2, List.mem_append_left _ c3⟩
    · omega
    · exact absurd c2 (hq.2 j o c1)
    · refine ⟨q, d, List.mem_append_left _ (h8 q d c1), ?_⟩
      rw [b1] at c2
      rw [List.append_cancel_left c2]
      exact List.mem_append_right _ (List.mem_singleton.2 rfl)

theorem eff_running {g : Graph F L} {s s' : State F L} {a : Action F L} (e : Eff g s s' a) {j : Job}
    (hj : j ∈ s.running) : j ∈ s'.running ∨ ∃ i o, RetEff g s s' i o ∧ i.c = j.c := by
  cases e with
  | request k reserve e => rw [e.running]; exact .inl hj
  | setFlush e => subst e; exact .inl hj
  | hit _ _ _ _ e => rw [e.rest.running]; exact .inl hj
  | call e => rw [e.running]; exact .inl (List.mem_cons_of_mem _ hj)
  | swap _ _ _ _ _ e => subst e; exact .inl hj
  | @ret o i e =>
    by_cases ec : j.c = i.c
    · exact .inr ⟨i, o, e, ec.symm⟩
    · exact .inl ((e.running j).2 ⟨hj, ec⟩)
  | done _ _ e => rw [e.rest.running]; exact .inl hj
  | wait e => rw [e.running]; exact .inl hj
  | callback _ e => subst e; exact .inl hj

theorem eff_owner {g : Graph F L} {s s' : State F L} {a : Action F L} (e : Eff g s s' a) {n c : Nat}
    (ho : s'.owner n = some c) : s.owner n = some c ∨ ∃ serial, CallEff g s s' c serial := by
  cases e with
  | request k reserve e => rw [e.owner] at ho; exact .inl ho
  | setFlush e => subst e; exact .inl ho
  | hit _ _ _ _ e => rw [e.rest.owner] at ho; exact .inl ho
  | @call _ _ d _ e =>
    rcases e.sf with ⟨_, _, _, _, b⟩ | ⟨_, _, b⟩
    · rw [b] at ho
      by_cases en : n = (s.ctx d).key.1
      · rw [en, upd_self] at ho
        injection ho with ho
        subst ho
        exact .inr ⟨_, e⟩
      · rw [upd_ne _ _ en] at ho; exact .inl ho
    · rw [b] at ho; exact .inl ho
  | swap _ _ _ _ _ e => subst e; exact .inl ho
  | @ret o j e =>
    rcases e.sf with ⟨_, _, _, _, b⟩ | ⟨_, _, b⟩
    · rw [b] at ho
      by_cases en : n = (s.ctx j.c).key.1
      · rw [en, upd_self] at ho; cases ho
      · rw [upd_ne _ _ en] at ho; exact .inl ho
    · rw [b] at ho; exact .inl ho
  | done _ _ e => rw [e.rest.owner] at ho; exact .inl ho
  | wait e => rw [e.owner] at ho; exact .inl ho
  | callback _ e => subst e; exact .inl ho

theorem split_one {α : Type} {t u v : List α} {x y : α} (h : t ++ [y] = u ++ x :: v) :
    (∃ w, t = u ++ x :: w ∧ v = w ++ [y]) ∨ (x = y ∧ v = [] ∧ u = t) := by
  rcases List.eq_nil_or_concat v with rfl | ⟨w, z, rfl⟩
  · right
    have := List.append_inj_right' h rfl
    have h2 := List.append_inj_left' h rfl
    injection this with this
    exact ⟨this.symm, rfl, h2.symm⟩
  · left
    rw [List.concat_eq_append, ← List.cons_append, ← List.append_assoc] at h
    have := List.append_inj_right' h rfl
    have h2 := List.append_inj_left' h rfl
    injection this with this
    exact ⟨w, h2, by rw [List.concat_eq_append, this]⟩

theorem step_tr3 {g : Graph F L} {s s' : State F L} {a : Action F L} (h : Acc g s []) (h' : Acc g s' [])
    (hs : Ser g s) (hs' : Ser g s') (t1 : Tr1 g s) (t1' : Tr1 g s') (ht : Tr3 g s) (e : Eff g s s' a) : Tr3 g s' := by
  have hcalled : ∀ c k r a, .call c k r a ∈ s'.trace → .call c k r a ∈ s.trace ∨
      ∃ serial, CallEff g s s' c serial ∧ k = (s.ctx c).key ∧ r = (s.ctx c).reason := by
    intro c k r a hm
    rcases eff_events e with ⟨d, serial, h1⟩ | ⟨j, o, h1⟩ | ⟨es, h1, h2⟩
    · rw [h1.trace] at hm
      rcases List.mem_append.1 hm with hm | hm
      · exact .inl hm
      · have := List.mem_singleton.1 hm
        injection this with e1 e2 e3 e4
        subst e1
        exact .inr ⟨serial, h1, e2, e3⟩
    · rw [h1.trace] at hm
      rcases List.mem_append.1 hm with hm | hm
      · exact .inl hm
      · cases List.mem_singleton.1 hm
    · rw [h1] at hm
      rcases List.mem_append.1 hm with hm | hm
      · exact .inl hm
      · exact absurd hm ((h2 c).1 k r a)
  refine ⟨?_, ?_, ?_, ?_, ?_, ?_, ?_⟩
  · -- calledc
    intro c k r a hm hr
    rcases hcalled c k r a hm with hm | ⟨serial, h1, h2, h3⟩
    · have hf := ht.calledc c k r a hm hr
      rcases eff_first e (t1.ev _ hm).1 with h2 | h2
      · rw [h2]; exact hf
      · exact h2.2.1
    · rw [h1.self]
      simp only
      cases hf : (s.ctx c).first with
      | false => simp
      | true =>
        have : (s.ctx c).reason = .initial := by
          unfold Ctx.reason
          rw [h3] at hr
          rw [if_neg (fun hx => hr (reason_error.2 hx)), hf]
          rfl
        rw [if_pos this]
  · -- errc
    intro c k a hm
    rcases hcalled c k .error a hm with hm | ⟨serial, h1, h2, h3⟩
    · obtain ⟨b1, b2, b3, b4⟩ := ht.errc c k a hm
      have hlt := (t1.ev _ hm).1
      have hb4 : (s'.ctx c).error.isSome = true := by
        cases hx : (s.ctx c).error with
        | none => rw [hx] at b4; cases b4
        | some m => rw [eff_error e hlt hx]; rfl
      have hnq : ¬ (0 < (s'.ctx c).pending ∨ c ∈ s'.tasks ∨ c ∈ s'.alt) := by
        intro hx
        rcases eff_queued h e hlt hx with (b | b | b) | b
        · omega
        · exact b1 b
        · exact b2 b
        · rw [b.error] at b4; cases b4
      exact ⟨fun hx => hnq (.inr (.inl hx)), fun hx => hnq (.inr (.inr hx)),
        Nat.eq_zero_of_not_pos (fun hx => hnq (.inl hx)), hb4⟩
    · have hd := h.disj_tasks h1.mem
      refine ⟨fun hx => ((h1.tasks c).1 hx).2 rfl, by rw [h1.alt]; exact hd.1, ?_, ?_⟩
      · rw [h1.self]; exact h.idle c (h.mem_lists.2 (.inl h1.mem))
      · rw [h1.self]; exact reason_error (x := s.ctx c).1 h3.symm
  · -- opn
    intro u c k r a v hsp hnr
    rcases eff_events e with ⟨d, serial, h1⟩ | ⟨j, o, h1⟩ | ⟨es, h1, h2⟩
    · have htr := h1.trace
      rw [hsp] at htr
      rcases split_one htr.symm with ⟨w, b1, b2⟩ | ⟨b1, _, _⟩
      · obtain ⟨j, hj, hjc⟩ := ht.opn u c k r a w b1 (fun k q er f hx => hnr k q er f (by
          rw [b2]; exact List.mem_append_left _ hx))
        exact ⟨j, by rw [h1.running]; exact List.mem_cons_of_mem _ hj, hjc⟩
      · injection b1 with e1 e2 e3 e4
        subst e1
        exact ⟨_, by rw [h1.running]; exact List.mem_cons_self .., rfl, e3.symm⟩
    · have htr := h1.trace
      rw [hsp] at htr
      rcases split_one htr.symm with ⟨w, b1, b2⟩ | ⟨b1, _, _⟩
      · obtain ⟨i, hi, hic⟩ := ht.opn u c k r a w b1 (fun k q er f hx => hnr k q er f (by
          rw [b2]; exact List.mem_append_left _ hx))
        refine ⟨i, (h1.running i).2 ⟨hi, fun ec => ?_⟩, hic⟩
        refine hnr (s.ctx j.c).key o.reqs o.err o.frame ?_
        rw [b2, ← hic.1, ec]
        exact List.mem_append_right _ (List.mem_singleton.2 rfl)
      · cases b1
    · have htr := h1
      rw [hsp] at htr
      rcases split_snoc htr.symm with ⟨w, b1, b2⟩ | b1
      · obtain ⟨j, hj, hjc⟩ := ht.opn u c k r a w b1 (fun k q er f hx => hnr k q er f (by
          rw [b2]; exact List.mem_append_left _ hx))
        rcases eff_running e hj with h3 | ⟨i, o, h3, _⟩
        · exact ⟨j, h3, hjc⟩
        · exfalso
          have := h3.trace
          rw [h1] at this
          have := List.append_cancel_left this
          refine (h2 i.c).2 (s.ctx i.c).key o.reqs o.err o.frame ?_
          rw [this]; exact List.mem_singleton.2 rfl
      · exact absurd b1 ((h2 c).1 k r a)
  · -- pair
    intro u c k r a v d kd rd ad hsp hd hk hm hdc ho
    -- a computation that was called before and is called again owns the node
    have hagain : ∀ serial, CallEff g s s' c serial → .call c k r a ∈ s.trace → s.owner k.1 = some c := by
      intro serial hcall hmem
      have hf : (s.ctx c).first = false := by
        refine ht.calledc c k r a hmem ?_
        rintro rfl
        exact (ht.errc c k a hmem).1 hcall.mem
      refine (hs.own k.1 c).2 ⟨hm, by rw [(t1.ev _ hmem).2], .inr (.inl ⟨.inl hcall.mem, hf⟩)⟩
    have hold : ∀ w, s.trace = u ++ .call c k r a :: w → .call d kd rd ad ∈ w → False := by
      intro w b1 b2
      have hmem : .call c k r a ∈ s.trace := by rw [b1]; exact List.mem_append_right _ (List.mem_cons_self ..)
      refine ht.pair u c k r a w d kd rd ad b1 b2 hk hm hdc ?_
      rcases eff_owner e ho with b3 | ⟨serial, b3⟩
      · exact b3
      · exact hagain serial b3 hmem
    rcases eff_events e with ⟨x, serial, h1⟩ | ⟨j, o, h1⟩ | ⟨es, h1, h2⟩
    · have htr := h1.trace
      rw [hsp] at htr
      rcases split_one htr.symm with ⟨w, b1, b2⟩ | ⟨_, b2, _⟩
      · have hmem : .call c k r a ∈ s.trace := by rw [b1]; exact List.mem_append_right _ (List.mem_cons_self ..)
        rw [b2] at hd
        rcases List.mem_append.1 hd with hd | hd
        · exact hold w b1 hd
        · have := List.mem_singleton.1 hd
          injection this with e1 e2 e3 e4
          subst e1
          have hn : (s.ctx d).key.1 = k.1 := by rw [← e2]; exact hk
          have hun := h1.unowned h hs (by rw [hn]; exact hm)
          rw [hn] at hun
          rcases eff_owner e ho with b3 | ⟨serial', b3⟩
          · rw [b3] at hun
            rcases hun with hun | hun
            · cases hun
            · injection hun with hun; exact hdc hun.symm
          · have := h1.running
            rw [b3.running] at this
            injection this with this
            injection this with this
            exact hdc this.symm
      · rw [b2] at hd; cases hd
    · have htr := h1.trace
      rw [hsp] at htr
      rcases split_one htr.symm with ⟨w, b1, b2⟩ | ⟨_, b2, _⟩
      · rw [b2] at hd
        rcases List.mem_append.1 hd with hd | hd
        · exact hold w b1 hd
        · cases List.mem_singleton.1 hd
      · rw [b2] at hd; cases hd
    · rw [h1] at hsp
      rcases split_snoc hsp with ⟨w, b1, b2⟩ | b1
      · rw [b2] at hd
        rcases List.mem_append.1 hd with hd | hd
        · exact hold w b1 hd
        · exact (h2 d).1 kd rd ad hd
      · exact (h2 c).1 k r a b1
  · -- fav
    intro c hf
    have hav : (s.ctx c).avail = [] ∧ (s.ctx c).pending = 0 := by
      by_cases hc : c < s.next
      · have hf0 : (s.ctx c).first = true := by
          rcases eff_first e hc with h1 | h1
          · rw [← h1]; exact hf
          · exact h1.1
        exact ⟨ht.fav c hf0, (h.first_ok c hf0).1⟩
      · rw [h.blank c (Nat.not_lt.1 hc)]; exact ⟨rfl, rfl⟩
    cases hx : (s'.ctx c).avail with
    | nil => rfl
    | cons y l =>
      exfalso
      have hm : (y.1, y.2) ∈ (s'.ctx c).avail := by rw [hx]; exact List.mem_cons_self ..
      rcases eff_avail h h' e hm with h1 | ⟨d, h1, _⟩
      · rw [hav.1] at h1; cases h1
      · have := h1.pending h; omega
  · -- fin
    intro p hp
    rcases eff_finished e hp with h1 | ⟨j, o, h1, _, rfl⟩
    · exact fdata_mono h h' e h1 hp (ht.fin p h1)
    · have hjr : j.c ∈ s.running.map Job.c := List.mem_map.2 ⟨_, h1.mem, rfl⟩
      refine ⟨s.trace, o.reqs, o.err, [], ?_, (fun _ _ _ h => nomatch h), (fun _ _ _ _ h => nomatch h),
        (fun _ _ h => nomatch h), ?_, ?_⟩
      · rw [h1.trace, h1.self]; rfl
      · rw [h1.self]
        unfold Ctx.after
        simp only
        rw [hs.noreq j.c (.inr (.inr (.inl hjr))), List.nil_append]
      · rw [h1.self]
        unfold Ctx.after
        simp only
        intro hx
        cases he : (s.ctx j.c).error with
        | none => rw [he] at hx; simpa using hx
        | some m => rw [he] at hx; cases hx
  · -- wat
    intro c hw
    rcases eff_waiting h h' e hw with h1 | h1
    · exact wdata_mono h h' e h1 hw (ht.wat c h1)
    · obtain ⟨u, reqs, err, v, b1, b2, b3, b6, b4, b5⟩ := ht.fin _ h1.mem
      obtain ⟨es, c1, c2, c3, c4⟩ := h1.trace
      simp only at b1 b4 b5
      rw [b5 h1.error] at b1
      refine ⟨u, reqs, v ++ es, ?_, ?_, ?_, ?_, ?_, ?_, ?_, ?_, ?_⟩
      · rw [c1, b1, h1.self.key, List.append_assoc, List.cons_append]; rfl
      · exact b2.append (fun k r a hx => by obtain ⟨_, _, h, _⟩ := c2 _ hx; cases h)
      · exact b3.append (fun k q er f hx => by obtain ⟨_, _, h, _⟩ := c2 _ hx; cases h)
      · intro hx; apply h1.reqs; rw [b4, hx]; rfl
      · intro q hq; exact h1.nonneg _ (by rw [b4]; exact List.mem_map.2 ⟨q, hq, rfl⟩)
      · intro q hq
        obtain ⟨d, hd⟩ := c3 (g.clamp q) (by rw [b4]; exact List.mem_map.2 ⟨q, hq, rfl⟩)
        exact ⟨d, List.mem_append_right _ hd⟩
      · intro q d hm
        rcases List.mem_append.1 hm with hm | hm
        · exact absurd hm (b6 q d)
        · obtain ⟨q', d', e1, e2, e3, e4⟩ := c2 _ hm
          injection e1 with _ e1 e5
          subst e1; subst e5
          exact ⟨by rw [← b4]; exact e2, .inl ⟨e3, e4⟩⟩
      · intro q d ho
        exact List.mem_append_right _ (c4 q d ho.1 ho.2)
      · intro m hm
        rw [h1.self.error] at hm
        have : (s.ctx c).wait.error = (s.ctx c).error := rfl
        rw [this, h1.error] at hm
        cases hm

end VS.Pool
