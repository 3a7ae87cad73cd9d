import Verif.Pool.Trace3

/-!
# Callbacks come after their requests, and failed inputs lead to a call with `error`
-/

namespace VS.Pool

variable {F L : Type}

theorem eff_stays {g : Graph F L} {s s' : State F L} {a : Action F L} (h : Acc g s [])
    (e : Eff g s s' a) {c : Nat} (hw : Waiting s c) :
    Waiting s' c ∨ ∃ serial, CallEff g s s' c serial := by
  have hc := hw.lt h
  rcases (eff_first e hc).symm with ⟨_, _, h1⟩ | hf
  · exact .inr h1
  rw [hw.2] at hf
  refine (?_ : (0 < (s'.ctx c).pending ∨ c ∈ s'.tasks ∨ c ∈ s'.alt) ∨ _).imp (fun x => ⟨x, hf⟩) id
  have hw1 := hw.1
  have hend : ∀ d r, EndEff s s' d r → c ≠ d → 0 < (s'.ctx c).pending ∨ c ∈ s'.tasks ∨ c ∈ s'.alt := by
    intro d r e' hne
    rcases hw1 with h1 | h1 | h1
    · have hp := (e'.gets c).pending
      by_cases h0 : 0 < (s'.ctx c).pending
      · exact .inl h0
      · refine .inr (.inl ((e'.tasks c).2 (.inr ⟨?_, by omega⟩)))
        exact List.count_pos_iff.1 (by omega)
    · exact .inr (.inl ((e'.tasks c).2 (.inl ⟨h1, hne⟩)))
    · rw [e'.rest.alt]; exact .inr (.inr h1)
  cases e with
  | request k reserve e =>
    left
    rw [e.other c (Nat.ne_of_lt hc)]
    rcases hw1 with h1 | h1 | h1
    · exact .inl h1
    · rcases e.tasks with ⟨_, _, _, b2⟩ | ⟨_, _, b2⟩
      · rw [b2]; exact .inr (.inl h1)
      · rw [b2]; exact .inr (.inl (List.mem_append_left _ h1))
    · rcases e.tasks with ⟨_, _, b2, _⟩ | ⟨_, b2, _⟩
      · rw [b2]; exact .inr (.inr (List.mem_append_left _ h1))
      · rw [b2]; exact .inr (.inr h1)
  | setFlush e => subst e; exact .inl hw1
  | hit _ h2 _ _ e =>
    refine .inl (hend _ _ e ?_)
    rintro rfl
    rw [hw.2] at h2; cases h2
  | @call _ _ d _ e =>
    by_cases ec : c = d
    · subst ec; exact .inr ⟨_, e⟩
    · left
      rw [e.other c ec, e.alt, e.tasks]
      rcases hw1 with h1 | h1 | h1
      · exact .inl h1
      · exact .inr (.inl ⟨h1, ec⟩)
      · exact .inr (.inr h1)
  | swap _ _ _ _ _ e =>
    subst e
    rcases hw1 with h1 | h1 | h1
    · exact .inl (.inl h1)
    · exact .inl (.inr (.inr h1))
    · exact .inl (.inr (.inl h1))
  | @ret o j e =>
    left
    rw [e.alt, e.tasks]
    have hjr : j.c ∈ s.running.map Job.c := List.mem_map.2 ⟨_, e.mem, rfl⟩
    rw [e.other c]
    · exact hw1
    · rintro rfl
      have hl := h.mem_lists.2 (.inr (.inr (.inl hjr)))
      rcases hw1 with h1 | h1 | h1
      · have := h.idle j.c hl; omega
      · exact (h.disj_run hjr).1 h1
      · exact (h.disj_run hjr).2.1 h1
  | @done p _ hp _ e =>
    refine .inl (hend _ _ e ?_)
    rintro rfl
    have hm : p.1 ∈ s.finished.map Prod.fst := List.mem_map.2 ⟨_, hp, rfl⟩
    have hl := h.mem_lists.2 (.inr (.inr (.inr (.inl hm))))
    rcases hw1 with h1 | h1 | h1
    · have := h.idle p.1 hl; omega
    · exact (h.disj_fin hm).1 h1
    · exact (h.disj_fin hm).2.1 h1
  | @wait d e =>
    left
    by_cases ec : c = d
    · subst ec
      have hm : c ∈ s.finished.map Prod.fst := List.mem_map.2 ⟨_, e.mem, rfl⟩
      have hl := h.mem_lists.2 (.inr (.inr (.inr (.inl hm))))
      exfalso
      rcases hw1 with h1 | h1 | h1
      · have := h.idle c hl; omega
      · exact (h.disj_fin hm).1 h1
      · exact (h.disj_fin hm).2.1 h1
    · rw [(e.old c hc ec).pending, e.alt, e.tasks]
      rcases hw1 with h1 | h1 | h1
      · exact .inl h1
      · exact .inr (.inl (.inl h1))
      · exact .inr (.inr h1)
  | callback _ e => subst e; exact .inl hw1

theorem split_all {α : Type} {t es u v : List α} {x : α} (h : t ++ es = u ++ x :: v) :
    (∃ w, t = u ++ x :: w ∧ v = w ++ es) ∨ ∃ w, es = w ++ x :: v := by
  rcases List.append_eq_append_iff.1 h with ⟨w, _, h2⟩ | ⟨w, h1, h2⟩
  · exact .inr ⟨w, h2⟩
  · cases w with
    | nil => exact .inr ⟨[], h2.symm⟩
    | cons y w =>
      injection h2 with e1 e2
      subst e1
      exact .inl ⟨w, h1, e2⟩

theorem eff_running_new {g : Graph F L} {s s' : State F L} {a : Action F L} (e : Eff g s s' a) {j : Job}
    (hj : j ∈ s'.running) : (j ∈ s.running ∧ ∀ i o, RetEff g s s' i o → i.c ≠ j.c) ∨
      ∃ serial, CallEff g s s' j.c serial ∧ j.reason = (s.ctx j.c).reason := by
  have hn : ∀ i o, RetEff g s s' i o → i.c ≠ j.c := fun i o e' => ((e'.running j).1 hj).2.symm
  cases e with
  | request k reserve e => rw [e.running] at hj; exact .inl ⟨hj, hn⟩
  | setFlush e => subst e; exact .inl ⟨hj, hn⟩
  | hit _ _ _ _ e => rw [e.rest.running] at hj; exact .inl ⟨hj, hn⟩
  | call e =>
    rw [e.running] at hj
    rcases List.mem_cons.1 hj with rfl | hj
    · exact .inr ⟨_, e, rfl⟩
    · exact .inl ⟨hj, hn⟩
  | swap _ _ _ _ _ e => subst e; exact .inl ⟨hj, hn⟩
  | @ret o i e => exact .inl ⟨((e.running j).1 hj).1, hn⟩
  | done _ _ e => rw [e.rest.running] at hj; exact .inl ⟨hj, hn⟩
  | wait e => rw [e.running] at hj; exact .inl ⟨hj, hn⟩
  | callback _ e => subst e; exact .inl ⟨hj, hn⟩

structure Tr4 (s : State F L) : Prop where
  cbs : ∀ t1 c k r t2, s.trace = t1 ++ .callback c k r :: t2 → .request c k ∈ t1 ∧ .finish c k r ∈ t1
  fail : ∀ c q d m, .attach c q d ∈ s.trace → .finish d q (.error m) ∈ s.trace →
    Waiting s c ∨ ∃ k a, .call c k .error a ∈ s.trace
  run : ∀ j ∈ s.running, ∃ u k a v, s.trace = u ++ .call j.c k j.reason a :: v ∧ NoRet j.c v ∧ NoCall j.c v
  rets : ∀ t1 c k q er f t2, s.trace = t1 ++ .ret c k q er f :: t2 →
    ∃ u k r a v, t1 = u ++ .call c k r a :: v ∧ NoRet c v ∧ NoCall c v
  last : ∀ t1 c k a t2, s.trace = t1 ++ .call c k .error a :: t2 → ∀ q d, .attach c q d ∉ t2

theorem init_tr4 (g : Graph F L) : Tr4 (State.init g) := by
  refine ⟨?_, ?_, ?_, ?_, ?_⟩
  · intro t1 c k r t2 h
    have h' : ([] : List (Event F)) = _ := h
    simp at h'
  · intro c q d m h; cases h
  · intro j h; cases h
  · intro t1 c k q er f t2 h
    have h' : ([] : List (Event F)) = _ := h
    simp at h'
  · intro t1 c k a t2 h
    have h' : ([] : List (Event F)) = _ := h
    simp at h'

theorem eff_callback {g : Graph F L} {s s' : State F L} {a : Action F L} (e : Eff g s s' a) :
    (∃ p ∈ s.returning, s'.trace = s.trace ++ [.callback p.1 (s.ctx p.1).key p.2]) ∨
    ∃ es, s'.trace = s.trace ++ es ∧ ∀ c k r, .callback c k r ∉ es := by
  have hone : ∀ ev : Event F, (∀ c k r, .callback c k r ≠ ev) → ∀ c k r, .callback c k r ∉ [ev] :=
    fun ev h c k r hx => h c k r (List.mem_singleton.1 hx)
  cases e with
  | request k reserve e => exact .inr ⟨_, e.trace, hone _ (by simp)⟩
  | setFlush e => subst e; exact .inr ⟨[], by simp, by simp⟩
  | hit _ _ _ _ e => exact .inr ⟨_, e.trace, hone _ (by simp)⟩
  | call e => exact .inr ⟨_, e.trace, hone _ (by simp)⟩
  | swap _ _ _ _ _ e => subst e; exact .inr ⟨[], by simp [State.swap], by simp⟩
  | ret e => exact .inr ⟨_, e.trace, hone _ (by simp)⟩
  | done _ _ e => exact .inr ⟨_, e.trace, hone _ (by simp)⟩
  | wait e =>
    obtain ⟨es, t1, t2, _⟩ := e.trace
    refine .inr ⟨es, t1, fun c k r hx => ?_⟩
    obtain ⟨_, _, h, _⟩ := t2 _ hx; cases h
  | @callback p hp e => subst e; exact .inl ⟨p, hp, rfl⟩

theorem step_tr4 {g : Graph F L} {s s' : State F L} {a : Action F L} (h : Acc g s []) (h' : Acc g s' [])
    (ht1 : Tr1 g s) (h1' : Tr1 g s') (ht2 : Tr2 g s) (ht3 : Tr3 g s) (ht : Tr4 s) (e : Eff g s s' a) : Tr4 s' := by
  refine ⟨?_, ?_, ?_, ?_, ?_⟩
  · intro t1 c k r t2 hs
    rcases eff_callback e with ⟨p, hp, htr⟩ | ⟨es, htr, hno⟩
    · rw [htr] at hs
      rcases split_one hs with ⟨w, h1, _⟩ | ⟨h2, _, h1⟩
      · exact ht.cbs _ _ _ _ _ h1
      · injection h2 with e1 e2 e3
        subst e1; subst e2; subst e3
        rw [h1]
        have hl := h.lt p.1 (h.mem_lists.2 (.inr (.inr (.inr (.inr (List.mem_map.2 ⟨p, hp, rfl⟩))))))
        exact ⟨ht1.req p.1 hl (h.ret_ext p hp), ht1.ret p hp⟩
    · rw [htr] at hs
      rcases split_snoc hs with ⟨w, h1, _⟩ | h2
      · exact ht.cbs _ _ _ _ _ h1
      · exact absurd h2 (hno c k r)
  · intro c q d m ha hf
    have hov := h1'.over d q _ hf
    rcases (eff_attach_new e ha).symm with ho | ha0
    · exact absurd rfl (hov.2.2.2.2.2.1 _ ho.1)
    have key : (Waiting s c ∧ (c ∈ s.tasks → (s.ctx c).error.isSome = true)) ∨ ∃ k a, .call c k .error a ∈ s.trace := by
      rcases ht2.att c q d ha0 with ho | ⟨r, hr, hre⟩
      · have hp := ho.pending h
        refine .inl ⟨⟨.inl hp, ?_⟩, fun hc => ?_⟩
        · cases hfi : (s.ctx c).first with
          | false => rfl
          | true => have := (h.first_ok c hfi).1; omega
        · have := h.idle c (h.mem_lists.2 (.inl hc)); omega
      · have hre' := finish_unique h1'.finOnce (eff_mem e hr) hf
        rcases ht.fail c q d m ha0 (by rw [← hre'.2]; exact hr) with hw | hw
        · exact .inl ⟨hw, fun _ => hre m hre'.2⟩
        · exact .inr hw
    rcases key with ⟨hw, hee⟩ | ⟨k, a, hk⟩
    · rcases eff_stays h e hw with h1 | ⟨serial, h1⟩
      · exact .inl h1
      · refine .inr ⟨(s.ctx c).key, (s.ctx c).avail, ?_⟩
        have := h1.trace
        rw [reason_error.2 (hee h1.mem)] at this
        rw [this]
        exact List.mem_append_right _ (List.mem_singleton.2 rfl)
    · exact .inr ⟨k, a, eff_mem e hk⟩
  · intro j hj
    rcases eff_running_new e hj with ⟨h1, _⟩ | ⟨serial, h1, h2⟩
    · obtain ⟨u, k, a, v, b1, b2, b3⟩ := ht.run j h1
      have hjr : j.c ∈ s.running.map Job.c := List.mem_map.2 ⟨_, h1, rfl⟩
      obtain ⟨es, b4, b5, b6⟩ := eff_quiet e (c := j.c)
        (fun serial hce => (h.disj_run hjr).1 hce.mem)
        (fun j' o hr ec => ((hr.running j).1 hj).2 ec.symm)
      exact ⟨u, k, a, v ++ es, by rw [b4, b1]; simp, b2.append b6, b3.append b5⟩
    · exact ⟨s.trace, (s.ctx j.c).key, (s.ctx j.c).avail, [], by rw [h1.trace, h2], (fun _ _ _ _ h => nomatch h),
        (fun _ _ _ h => nomatch h)⟩
  · intro t1 c k q er f t2 hs
    rcases eff_events e with ⟨d, serial, h1⟩ | ⟨j, o, h1⟩ | ⟨es, h1, h2⟩
    · rw [h1.trace] at hs
      rcases split_one hs with ⟨w, b1, _⟩ | ⟨b1, _⟩
      · exact ht.rets _ _ _ _ _ _ _ b1
      · cases b1
    · rw [h1.trace] at hs
      rcases split_one hs with ⟨w, b1, _⟩ | ⟨b1, _, b3⟩
      · exact ht.rets _ _ _ _ _ _ _ b1
      · injection b1 with b1
        subst b1; subst b3
        obtain ⟨u, k, a, v, b1, b2, b3⟩ := ht.run j h1.mem
        exact ⟨u, k, _, a, v, b1, b2, b3⟩
    · rw [h1] at hs
      rcases split_snoc hs with ⟨w, b1, _⟩ | b1
      · exact ht.rets _ _ _ _ _ _ _ b1
      · exact absurd b1 ((h2 c).2 _ _ _ _)
  · intro t1 c k a t2 hs q d hx
    have hold : ∀ es, s'.trace = s.trace ++ es → .attach c q d ∉ es → False := by
      intro es htr hne
      rw [htr] at hs
      rcases split_all hs with ⟨w, h1, h2⟩ | ⟨w, h1⟩
      · rw [h2] at hx
        exact ht.last _ _ _ _ _ h1 q d ((List.mem_append.1 hx).resolve_right hne)
      · rw [h1] at hne
        exact hne (List.mem_append_right _ (List.mem_cons_of_mem _ hx))
    have hone : ∀ ev : Event F, (∀ c q d, .attach c q d ≠ ev) → s'.trace = s.trace ++ [ev] → False :=
      fun ev h htr => hold _ htr (fun hx => h c q d (List.mem_singleton.1 hx))
    cases e with
    | request k reserve e => exact hone _ (by simp) e.trace
    | setFlush e => subst e; exact hold [] (by simp) (by simp)
    | hit _ _ _ _ e => exact hone _ (by simp) e.trace
    | call e => exact hone _ (by simp) e.trace
    | swap _ _ _ _ _ e => subst e; exact hold [] (by simp [State.swap]) (by simp)
    | ret e => exact hone _ (by simp) e.trace
    | done _ _ e => exact hone _ (by simp) e.trace
    | wait e =>
      obtain ⟨es, b1, b2, _⟩ := e.trace
      refine hold es b1 (fun hm => ?_)
      obtain ⟨q', d', e1, _⟩ := b2 _ hm
      injection e1 with e1
      subst e1
      have hcall : .call c k .error a ∈ s.trace := by
        rw [b1] at hs
        rcases split_snoc hs with ⟨w, h1, _⟩ | h1
        · rw [h1]; exact List.mem_append_right _ (List.mem_cons_self ..)
        · obtain ⟨_, _, h2, _⟩ := b2 _ h1; cases h2
      have := (ht3.errc c k a hcall).2.2.2
      rw [e.error] at this; cases this
    | @callback p hp e => subst e; exact hone _ (by simp) rfl

end VS.Pool
