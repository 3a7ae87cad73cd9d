import Verif.Pool.Acc

/-!
# The accounting holds in every reachable state
-/

namespace VS.Pool

variable {F L : Type}

theorem owed_erase {ctx : Nat → Ctx F L} {all : List (Key × Nat)} {k : Key} {c : Nat}
    (hn : (all.map Prod.fst).Nodup) (hc : (k, c) ∈ all) (x : Nat) :
    owed ctx all x = (ctx c).notify.count x + owed ctx (all.filter (fun e => e.1 ≠ k)) x := by
  unfold owed
  induction all with
  | nil => cases hc
  | cons a t ih =>
    rw [List.map_cons, List.nodup_cons] at hn
    rcases List.mem_cons.1 hc with e | hc'
    · subst e
      have hf : List.filter (fun e : Key × Nat => decide (e.1 ≠ k)) ((k, c) :: t) = t := by
        rw [List.filter_cons, if_neg (by simp)]
        rw [List.filter_eq_self]
        intro e he
        have : e.1 ≠ k := fun h => hn.1 (List.mem_map.2 ⟨e, he, h⟩)
        simpa using this
      rw [hf, List.map_cons, List.sum_cons]
    · have hne : a.1 ≠ k := fun h => hn.1 (List.mem_map.2 ⟨(k, c), hc', h.symm⟩)
      rw [List.filter_cons, if_pos (by simpa using hne)]
      rw [List.map_cons, List.sum_cons, List.map_cons, List.sum_cons, ih hn.2 hc']
      omega

theorem key_inj {all : List (Key × Nat)} {k : Key} {c d : Nat} (hn : (all.map Prod.fst).Nodup)
    (h1 : (k, c) ∈ all) (h2 : (k, d) ∈ all) : c = d := by
  induction all with
  | nil => cases h1
  | cons a t ih =>
    rw [List.map_cons, List.nodup_cons] at hn
    rcases List.mem_cons.1 h1 with e1 | h1 <;> rcases List.mem_cons.1 h2 with e2 | h2
    · rw [← e1] at e2; injection e2 with _ e2; exact e2.symm
    · exact absurd (List.mem_map.2 ⟨_, h2, by rw [← e1]⟩) hn.1
    · exact absurd (List.mem_map.2 ⟨_, h1, by rw [← e2]⟩) hn.1
    · exact ih hn.2 h1 h2

/-- `s1` is `s` after a worker took `c` out of its list. -/
structure Taken (s s1 : State F L) (c : Nat) : Prop where
  ctx : s1.ctx = s.ctx
  next : s1.next = s.next
  all : s1.all = s.all
  trace : s1.trace = s.trace
  lists : List.Perm s.lists (c :: s1.lists)
  returning : ∀ p ∈ s1.returning, p ∈ s.returning
  work : ∀ x, (x ∈ s1.running.map Job.c ∨ x ∈ s1.finished.map Prod.fst) →
    (x ∈ s.running.map Job.c ∨ x ∈ s.finished.map Prod.fst)

theorem emit_acc {g : Graph F L} {s : State F L} {l : List Nat} (h : Acc g s l) (e : Event F)
    (he : ∀ c k r, .callback c k r ≠ e) : Acc g (s.emit e) l :=
  h.move rfl rfl rfl (fun c => answered_append (fun k r hx => he c k r (by simpa using hx)))
    (.refl _) h.ret_ext h.first_run

theorem endCtx_acc {g : Graph F L} {s s1 : State F L} {c : Nat} (h : Acc g s []) (ht : Taken s s1 c)
    (r : Except String F) : Acc g (s1.endCtx c r) [] := by
  have hc : c ∈ s.lists := ht.lists.mem_iff.2 (List.mem_cons_self ..)
  have hnd := ht.lists.nodup_iff.1 h.nodup
  obtain ⟨hc1, hnd1⟩ := List.nodup_cons.1 hnd
  have hsub : ∀ x ∈ s1.lists, x ∈ s.lists := fun x hx => ht.lists.mem_iff.2 (List.mem_cons_of_mem _ hx)
  have hback : ∀ x, x ≠ c → x ∈ s.lists → x ∈ s1.lists := fun x e hx =>
    (List.mem_cons.1 (ht.lists.mem_iff.1 hx)).resolve_left e
  have hp0 : (s.ctx c).pending = 0 := h.idle c hc
  unfold State.endCtx
  simp only
  generalize hs2 : s1.leave c r = s2
  have hcx : s1.ctx c = s.ctx c := by rw [ht.ctx]
  rw [hcx]
  unfold State.leave at hs2
  rw [hcx] at hs2
  have key : Acc g s2 (s.ctx c).notify := by
    cases hx : (s.ctx c).external with
    | true =>
      rw [hx, if_pos rfl] at hs2
      rw [h.ext_notify c hx]
      have hl : List.Perm s2.lists (c :: s1.lists) := by
        rw [← hs2]
        unfold State.lists
        simp only [List.map_cons]
        have := List.perm_middle (a := c)
          (l₁ := s1.tasks ++ (s1.alt ++ (s1.running.map Job.c ++ s1.finished.map Prod.fst)))
          (l₂ := s1.returning.map Prod.fst)
        simpa [List.append_assoc] using this
      refine h.move (by rw [← hs2]; exact ht.ctx) (by rw [← hs2]; exact ht.next)
        (by rw [← hs2]; exact ht.all) (fun x => by rw [← hs2]; show Answered s1.trace x ↔ _; rw [ht.trace])
        (hl.trans ht.lists.symm) ?_ ?_
      · rw [← hs2]
        intro p hp
        rcases List.mem_cons.1 hp with rfl | hp
        · exact hx
        · exact h.ret_ext p (ht.returning p hp)
      · intro x h1 h2
        rw [← hs2] at h2
        exact h.first_run x h1 (ht.work x h2)
    | false =>
      rw [hx] at hs2
      simp only [Bool.false_eq_true, if_false] at hs2
      have hmem := h.mem_all c hx (.inl hc)
      have e1 : s2.ctx = s.ctx := by rw [← hs2]; exact ht.ctx
      have e2 : s2.next = s.next := by rw [← hs2]; exact ht.next
      have e3 : s2.all = s.all.filter (fun e => e.1 ≠ (s.ctx c).key) := by rw [← hs2, ← ht.all]
      have e4 : s2.trace = s.trace := by rw [← hs2]; exact ht.trace
      have e5 : s2.lists = s1.lists := by rw [← hs2]; rfl
      have e6 : s2.returning = s1.returning := by rw [← hs2]
      have e7 : s2.running = s1.running := by rw [← hs2]
      have e8 : s2.finished = s1.finished := by rw [← hs2]
      have hin : ∀ e ∈ s2.all, e ∈ s.all ∧ e.2 ≠ c := by
        intro e he
        rw [e3, List.mem_filter] at he
        refine ⟨he.1, ?_⟩
        intro ec
        have := (h.all_ok e he.1).2.1
        rw [ec] at this
        simp [this] at he
      refine ⟨?_, ?_, ?_, ?_, ?_, ?_, ?_, ?_, ?_, ?_, ?_, ?_, ?_, ?_, ?_⟩
      · rw [e5]; exact hnd1
      · rw [e5, e2]; exact fun x hx => h.lt x (hsub x hx)
      · rw [e1, e2]; exact h.blank
      · rw [e3]; exact h.keys.sublist (List.filter_sublist.map _)
      · rw [e1, e2]; exact fun e he => h.all_ok e (hin e he).1
      · intro x
        rw [e1, e3, ← owed_erase h.keys hmem x]
        simpa using h.bal x
      · rw [e1, e5]; exact fun x hx => h.idle x (hsub x hx)
      · intro x hx1 hor
        rw [e1, e5] at hor
        rw [e1] at hx1 ⊢
        have hxc : x ≠ c := by
          rintro rfl
          rcases hor with h1 | h1
          · exact hc1 h1
          · omega
        have hm := h.mem_all x hx1 (hor.imp_left (hsub x))
        rw [e3, List.mem_filter]
        refine ⟨hm, ?_⟩
        have : (s.ctx x).key ≠ (s.ctx c).key := by
          intro e
          rw [e] at hm
          exact hxc (key_inj h.keys hm hmem)
        simpa using this
      · intro e he
        obtain ⟨h1, h2⟩ := hin e he
        rw [e1, e5]
        exact (h.live e h1).imp_left (hback _ h2)
      · rw [e1]; exact h.ext_notify
      · rw [e6, e1]; exact fun p hp => h.ret_ext p (ht.returning p hp)
      · intro x hx1 hx2
        rw [e1] at hx2 ⊢
        rw [e2] at hx1
        rw [e5, e4]
        have hxc : x ≠ c := by rintro rfl; rw [hx] at hx2; cases hx2
        exact (h.answered x hx1 hx2).imp_left (hback x hxc)
      · intro x hx1
        rw [e4] at hx1
        rw [e1, e5]
        obtain ⟨h1, h2, h3⟩ := h.ans_out x hx1
        exact ⟨h1, fun hy => h2 (hsub x hy), h3⟩
      · rw [e1]; exact h.first_ok
      · intro x hx1
        rw [e1] at hx1 ⊢
        rw [e7, e8]
        exact fun h1 => h.first_run x hx1 (ht.work x h1)
  have h3 := emit_acc (notifyAll_acc (answer_keeps (s.ctx c).key r) key) (.finish c (s.ctx c).key r)
    (fun _ _ _ => by simp)
  split
  · exact h3
  · exact sort_acc h3

/-! ## Each step -/

/-- Changes inside a computation that is not waiting. -/
theorem set_acc {g : Graph F L} {s : State F L} {l : List Nat} {c : Nat} {y : Ctx F L} (h : Acc g s l)
    (hc : c < s.next)
    (h1 : y.key = (s.ctx c).key) (h2 : y.external = (s.ctx c).external)
    (h3 : y.notify = (s.ctx c).notify) (h4 : y.pending = (s.ctx c).pending)
    (h5 : y.first = true → (s.ctx c).first = true ∧ y.error = (s.ctx c).error ∧
      ((s.ctx c).error = none → y.avail = (s.ctx c).avail ∧ y.loc = (s.ctx c).loc)) :
    Acc g (s.setCtx c y) l := by
  have hself : (s.setCtx c y).ctx c = y := upd_self ..
  have hne : ∀ x, x ≠ c → (s.setCtx c y).ctx x = s.ctx x := fun x e => upd_ne _ _ e
  have a1 : ∀ x, ((s.setCtx c y).ctx x).key = (s.ctx x).key := by
    intro x; by_cases e : x = c
    · rw [e, hself, h1]
    · rw [hne x e]
  have a2 : ∀ x, ((s.setCtx c y).ctx x).external = (s.ctx x).external := by
    intro x; by_cases e : x = c
    · rw [e, hself, h2]
    · rw [hne x e]
  have a3 : ∀ x, ((s.setCtx c y).ctx x).notify = (s.ctx x).notify := by
    intro x; by_cases e : x = c
    · rw [e, hself, h3]
    · rw [hne x e]
  have a4 : ∀ x, ((s.setCtx c y).ctx x).pending = (s.ctx x).pending := by
    intro x; by_cases e : x = c
    · rw [e, hself, h4]
    · rw [hne x e]
  refine ⟨h.nodup, h.lt, ?_, h.keys, ?_, ?_, ?_, ?_, ?_, ?_, ?_, ?_, ?_, ?_, ?_⟩
  · intro x hx
    have : x ≠ c := fun e => by subst e; exact absurd hc (Nat.not_lt.2 hx)
    rw [hne x this]; exact h.blank x hx
  · intro e he; rw [a1, a2]; exact h.all_ok e he
  · intro x; rw [a4]
    show _ = _ + owed (s.setCtx c y).ctx s.all x
    rw [owed_congr (fun e _ => a3 e.2)]; exact h.bal x
  · intro x hx; rw [a4]; exact h.idle x hx
  · intro x; rw [a1, a2, a4]; exact h.mem_all x
  · intro e he; rw [a4]; exact h.live e he
  · intro x; rw [a2, a3]; exact h.ext_notify x
  · intro p hp; rw [a2]; exact h.ret_ext p hp
  · intro x; rw [a2, a4]; exact h.answered x
  · intro x; rw [a2, a4]; exact h.ans_out x
  · intro x hx
    by_cases e : x = c
    · subst e
      rw [hself] at hx
      obtain ⟨b1, b2, b3⟩ := h5 hx
      obtain ⟨d1, d2, d3, d4⟩ := h.first_ok x b1
      rw [hself, h1, h2, h4, b2]
      refine ⟨d1, d2, d3, ?_⟩
      intro e0
      rw [(b3 e0).1, (b3 e0).2]; exact d4 e0
    · rw [hne x e] at hx ⊢; exact h.first_ok x hx
  · intro x hx
    by_cases e : x = c
    · subst e
      rw [hself] at hx
      obtain ⟨b1, b2, _⟩ := h5 hx
      rw [hself, b2]
      exact h.first_run x b1
    · rw [hne x e] at hx ⊢; exact h.first_run x hx

theorem request_acc {g : Graph F L} {s : State F L} (h : Acc g s []) (k : Key) (reserve : Bool) :
    Acc g (s.request g k reserve) [] := by
  generalize hs' : s.request g k reserve = s'
  have hself : s'.ctx s.next = Ctx.ext g k (s.counter + 1) := by
    rw [← hs']; unfold State.request; simp only; split <;> exact upd_self ..
  have hne : ∀ x, x ≠ s.next → s'.ctx x = s.ctx x := fun x e => by
    rw [← hs']; unfold State.request; simp only; split <;> exact upd_ne _ _ e
  have htr : ∀ x, Answered s'.trace x ↔ Answered s.trace x := fun x => by
    rw [← hs']; unfold State.request; simp only
    split <;> exact answered_append (fun _ _ => by simp)
  have hl : List.Perm s'.lists (s.next :: s.lists) := by
    rw [← hs']; unfold State.request; simp only
    split
    · show List.Perm (s.tasks ++ ((s.alt ++ [s.next]) ++ _)) _
      have := List.perm_middle (a := s.next) (l₁ := s.tasks ++ s.alt)
        (l₂ := s.running.map Job.c ++ (s.finished.map Prod.fst ++ s.returning.map Prod.fst))
      simp only [List.append_assoc] at this
      rw [List.append_assoc]
      exact this
    · show List.Perm ((s.tasks ++ [s.next]) ++ _) _
      rw [List.append_assoc]
      exact List.perm_middle
  have hn' : s'.next = s.next + 1 := by
    rw [← hs']; unfold State.request; simp only; split <;> rfl
  have hall : s'.all = s.all := by rw [← hs']; unfold State.request; simp only; split <;> rfl
  have hrt : s'.returning = s.returning := by rw [← hs']; unfold State.request; simp only; split <;> rfl
  have hru : s'.running = s.running := by rw [← hs']; unfold State.request; simp only; split <;> rfl
  have hfi : s'.finished = s.finished := by rw [← hs']; unfold State.request; simp only; split <;> rfl
  clear hs'
  have hbl := h.blank s.next (Nat.le_refl _)
  have hne' : ∀ e ∈ s.all, e.2 ≠ s.next := fun e he => Nat.ne_of_lt (h.all_ok e he).1
  have hnl : s.next ∉ s.lists := fun hx => Nat.lt_irrefl _ (h.lt _ hx)
  have hmem : ∀ x, x ∈ s'.lists ↔ x = s.next ∨ x ∈ s.lists := fun x => by
    rw [hl.mem_iff, List.mem_cons]
  refine ⟨?_, ?_, ?_, ?_, ?_, ?_, ?_, ?_, ?_, ?_, ?_, ?_, ?_, ?_, ?_⟩
  · exact hl.nodup_iff.2 (List.nodup_cons.2 ⟨hnl, h.nodup⟩)
  · intro x hx
    rw [hmem] at hx; rw [hn']
    rcases hx with rfl | hx
    · omega
    · have := h.lt x hx; omega
  · intro x hx
    rw [hn'] at hx
    rw [hne x (by omega)]; exact h.blank x (by omega)
  · rw [hall]; exact h.keys
  · rw [hall, hn']; intro e he
    obtain ⟨h1, h2, h3⟩ := h.all_ok e he
    rw [hne _ (hne' e he)]; exact ⟨by omega, h2, h3⟩
  · intro x
    rw [hall, owed_congr (fun e he => by rw [hne _ (hne' e he)])]
    have hb := h.bal x
    by_cases e : x = s.next
    · rw [e, hself]
      rw [e, hbl] at hb; exact hb
    · rw [hne x e]; exact hb
  · intro x hx
    rw [hmem] at hx
    by_cases e : x = s.next
    · rw [e, hself]; rfl
    · rw [hne x e]; exact h.idle x (hx.resolve_left e)
  · intro x hx hor
    rw [hall]
    by_cases e : x = s.next
    · rw [e, hself] at hx; cases hx
    · rw [hne x e] at hx hor ⊢
      rw [hmem] at hor
      exact h.mem_all x hx (hor.imp_left (fun y => y.resolve_left e))
  · rw [hall]; intro e he
    rw [hmem, hne _ (hne' e he)]
    rcases h.live e he with h1 | h1
    · exact .inl (.inr h1)
    · exact .inr h1
  · intro x hx
    by_cases e : x = s.next
    · rw [e, hself]; rfl
    · rw [hne x e] at hx ⊢; exact h.ext_notify x hx
  · rw [hrt]; intro p hp
    have hlt := h.lt p.1 (by
      unfold State.lists
      simp only [List.mem_append]
      exact .inr (.inr (.inr (.inr (List.mem_map.2 ⟨p, hp, rfl⟩)))))
    rw [hne _ (Nat.ne_of_lt hlt)]; exact h.ret_ext p hp
  · intro x hx he
    by_cases e : x = s.next
    · exact .inl ((hmem x).2 (.inl e))
    · rw [hne x e] at he ⊢; rw [htr, hmem]
      rcases h.answered x (by omega) he with h1 | h1
      · exact .inl (.inr h1)
      · exact .inr h1
  · intro x hx
    rw [htr] at hx
    have := h.ans_out x hx
    have e : x ≠ s.next := by
      rintro rfl
      rw [hbl] at this; cases this.1
    rw [hne x e, hmem]
    exact ⟨this.1, by simp only [not_or]; exact ⟨e, this.2.1⟩, this.2.2⟩
  · intro x hx
    by_cases e : x = s.next
    · rw [e, hself]
      exact ⟨rfl, (fun y => nomatch y), (fun _ => rfl), fun _ => ⟨rfl, rfl⟩⟩
    · rw [hne x e] at hx ⊢; exact h.first_ok x hx
  · intro x hx
    rw [hru, hfi]
    by_cases e : x = s.next
    · intro ho
      refine absurd ?_ (e ▸ hnl)
      unfold State.lists
      simp only [List.mem_append]
      rcases ho with ho | ho
      · exact .inr (.inr (.inl ho))
      · exact .inr (.inr (.inr (.inl ho)))
    · rw [hne x e] at hx ⊢
      exact h.first_run x hx

/-! ## Finding work -/

theorem pick_hit {g : Graph F L} {s : State F L} {hit : Key → Option F} {full : Key → Bool} {c : Nat} {f : F} :
    ∀ {l seen : List Nat}, s.pick g hit full l seen = .hit c f →
      c ∈ l ∧ (s.ctx c).first = true ∧ hit (s.ctx c).key = some f
  | [], _, h => by cases h
  | a :: t, seen, h => by
    unfold State.pick at h
    simp only at h
    split at h
    · next f' e =>
      injection h with h1 h2
      subst h1; subst h2
      split at e
      · next hf => exact ⟨List.mem_cons_self .., hf, e⟩
      · cases e
    · repeat' split at h
      all_goals first
        | cases h
        | (obtain ⟨h1, h2⟩ := pick_hit h; exact ⟨List.mem_cons_of_mem _ h1, h2⟩)

theorem pick_call {g : Graph F L} {s : State F L} {hit : Key → Option F} {full : Key → Bool} {c : Nat}
    {serial : Bool} : ∀ {l seen : List Nat}, s.pick g hit full l seen = .call c serial →
      c ∈ l ∧ serial = useSerial (g.mode (s.ctx c).key.1) (s.ctx c).first ∧
      (serial = true → s.blocked g c = false)
  | [], _, h => by cases h
  | a :: t, seen, h => by
    unfold State.pick at h
    simp only at h
    split at h
    · cases h
    · repeat' split at h
      all_goals first
        | (injection h with h1 h2
           subst h1; subst h2
           refine ⟨List.mem_cons_self .., ?_, ?_⟩
           · simp_all
           · simp_all)
        | (obtain ⟨h1, h2⟩ := pick_call h; exact ⟨List.mem_cons_of_mem _ h1, h2⟩)

theorem taken_task {s : State F L} {c : Nat} (hc : c ∈ s.tasks) :
    Taken s { s with tasks := s.tasks.erase c } c :=
  ⟨rfl, rfl, rfl, rfl, (List.perm_cons_erase hc).append_right _, fun _ h => h, fun _ h => h⟩

theorem hit_acc {g : Graph F L} {s : State F L} {c : Nat} {f : F} (h : Acc g s []) (hc : c ∈ s.tasks) :
    Acc g (s.hit c f) [] := endCtx_acc h (taken_task hc) _

theorem call_acc {g : Graph F L} {s : State F L} {c : Nat} {serial : Bool} (h : Acc g s [])
    (hc : c ∈ s.tasks) : Acc g (s.call g c serial) [] := by
  have hlt : c < s.next := h.lt c (by unfold State.lists; simp [hc])
  unfold State.call
  simp only
  refine emit_acc ?_ _ (fun _ _ _ => by simp)
  generalize hs3 : (if serial && g.mode (s.ctx c).key.1 == .frameState && _ then _ else _ : State F L) = s3
  have e1 : s3.ctx = s.ctx ∧ s3.next = s.next ∧ s3.all = s.all ∧ s3.trace = s.trace ∧
      s3.tasks = s.tasks.erase c ∧ s3.alt = s.alt ∧ s3.running = ⟨c, serial, (s.ctx c).reason⟩ :: s.running ∧
      s3.finished = s.finished ∧ s3.returning = s.returning := by
    rw [← hs3]
    split <;> split <;> exact ⟨rfl, rfl, rfl, rfl, rfl, rfl, rfl, rfl, rfl⟩
  obtain ⟨a1, a2, a3, a4, a5, a6, a7, a8, a9⟩ := e1
  have hl : List.Perm s3.lists s.lists := by
    unfold State.lists
    rw [a5, a6, a7, a8, a9, List.map_cons]
    refine List.Perm.trans ?_ ((List.perm_cons_erase hc).symm.append_right _)
    have := List.perm_middle (a := c) (l₁ := s.tasks.erase c ++ s.alt)
        (l₂ := s.running.map Job.c ++ (s.finished.map Prod.fst ++ s.returning.map Prod.fst))
    simpa [List.append_assoc] using this
  split
  · next hi =>
    -- the first call
    have hnr : ¬ (c ∈ s.running.map Job.c ∨ c ∈ s.finished.map Prod.fst) := by
      intro hx
      have := h.nodup
      unfold State.lists at this
      rw [List.nodup_append] at this
      refine this.2.2 c hc c ?_ rfl
      simp only [List.mem_append]
      rcases hx with hx | hx
      · exact .inr (.inl hx)
      · exact .inr (.inr (.inl hx))
    have hb := set_acc (y := { s.ctx c with first := false }) h hlt rfl rfl rfl rfl (fun x => nomatch x)
    refine Acc.move (s := s.setCtx c { s.ctx c with first := false }) hb ?_ a2 a3 (fun x => ?_) hl ?_ ?_
    · show upd s3.ctx c _ = upd s.ctx c _
      rw [a1]
    · show Answered s3.trace x ↔ _
      rw [a4]; exact Iff.rfl
    · show ∀ p ∈ s3.returning, _
      rw [a9]; exact hb.ret_ext
    · intro x hx
      show (x ∈ s3.running.map Job.c ∨ x ∈ s3.finished.map Prod.fst) → _
      rw [a7, a8]
      intro ho
      by_cases e : x = c
      · rw [e, show (s.setCtx c { s.ctx c with first := false }).ctx c = _ from upd_self ..] at hx
        cases hx
      · refine hb.first_run x hx ?_
        rcases ho with ho | ho
        · exact .inl ((List.mem_cons.1 ho).resolve_left e)
        · exact .inr ho
  · next hi =>
    refine h.move a1 a2 a3 (fun x => by rw [a4]) hl (by rw [a9]; exact h.ret_ext) ?_
    rw [a7, a8]
    intro x hx ho
    by_cases e : x = c
    · unfold Ctx.reason at hi
      rw [e] at hx ⊢
      rw [hx] at hi
      cases he : (s.ctx c).error with
      | none => rw [he] at hi; exact absurd rfl hi
      | some m => rfl
    · refine h.first_run x hx ?_
      rcases ho with ho | ho
      · exact .inl ((List.mem_cons.1 ho).resolve_left e)
      · exact .inr ho

theorem eraseP_perm {α : Type} {f : α → Nat} {c : Nat} {l : List α} {p : α} (hp : p ∈ l) (hc : f p = c) :
    List.Perm (l.map f) (c :: (l.eraseP (fun p => f p == c)).map f) := by
  obtain ⟨a, l1, l2, _, h2, h3, h4⟩ := List.exists_of_eraseP (p := fun p => f p == c) hp (by simp [hc])
  rw [h4, h3]
  have : f a = c := by simpa using h2
  simp only [List.map_append, List.map_cons, this]
  exact List.perm_middle

theorem ret_acc {g : Graph F L} {s : State F L} {c : Nat} {serial : Bool} {o : Outcome F L} (h : Acc g s [])
    (hc : ∃ p ∈ s.running, p.c = c) : Acc g (s.ret g c serial o) [] := by
  obtain ⟨p, hp, hpc⟩ := hc
  have hcr : c ∈ s.running.map Job.c := List.mem_map.2 ⟨p, hp, hpc⟩
  have hlt : c < s.next := h.lt c (by unfold State.lists; simp only [List.mem_append]; exact .inr (.inr (.inl hcr)))
  unfold State.ret
  simp only
  refine emit_acc ?_ _ (fun _ _ _ => by simp)
  generalize hy : (s.ctx c).after g o = y
  generalize hs5 : (if y.error.isSome && o.frame.isSome then _ else _ : State F L) = s5
  have e1 : s5.ctx = upd s.ctx c y ∧ s5.next = s.next ∧ s5.all = s.all ∧ s5.trace = s.trace ∧
      s5.tasks = s.tasks ∧ s5.alt = s.alt ∧ s5.running = s.running.eraseP (fun p => p.c == c) ∧
      s5.finished = (c, o.frame) :: s.finished ∧ s5.returning = s.returning := by
    rw [← hs5]
    split <;> split <;> split <;> exact ⟨rfl, rfl, rfl, rfl, rfl, rfl, rfl, rfl, rfl⟩
  obtain ⟨a1, a2, a3, a4, a5, a6, a7, a8, a9⟩ := e1
  have hb := set_acc (y := y) h hlt (by rw [← hy]; rfl) (by rw [← hy]; rfl) (by rw [← hy]; rfl) (by rw [← hy]; rfl) (by
    intro hf
    have hf' : (s.ctx c).first = true := by rw [← hy] at hf; exact hf
    have herr := h.first_run c hf' (.inl hcr)
    refine ⟨hf', ?_, ?_⟩
    · rw [← hy]
      unfold Ctx.after
      cases hx : (s.ctx c).error with
      | none => rw [hx] at herr; cases herr
      | some m => rfl
    · intro hx; rw [hx] at herr; cases herr)
  refine Acc.move (s := s.setCtx c y) hb a1 a2 a3 (fun x => by rw [a4]; exact Iff.rfl) ?_ ?_ ?_
  · unfold State.lists
    rw [a5, a6, a7, a8, a9, List.map_cons]
    refine List.Perm.append_left _ (List.Perm.append_left _ ?_)
    show List.Perm _ (s.running.map Job.c ++ _)
    refine List.Perm.trans ?_ ((eraseP_perm hp hpc).symm.append_right _)
    exact List.perm_middle
  · rw [a9]; exact hb.ret_ext
  · intro x hx
    rw [a7, a8]
    intro ho
    refine hb.first_run x hx ?_
    rcases ho with ho | ho
    · left
      obtain ⟨q, hq, hqc⟩ := List.mem_map.1 ho
      exact List.mem_map.2 ⟨q, List.mem_of_mem_eraseP hq, hqc⟩
    · rcases List.mem_cons.1 ho with rfl | ho
      · exact .inl hcr
      · exact .inr ho

theorem taken_finished {s : State F L} {c : Nat} {p : Nat × Option F} (hp : p ∈ s.finished) (hc : p.1 = c) :
    Taken s { s with finished := s.finished.eraseP (fun p => p.1 == c) } c := by
  refine ⟨rfl, rfl, rfl, rfl, ?_, fun _ h => h, ?_⟩
  · unfold State.lists
    have := List.perm_middle (a := c) (l₁ := s.tasks ++ (s.alt ++ s.running.map Job.c))
      (l₂ := (s.finished.eraseP (fun p => p.1 == c)).map Prod.fst ++ s.returning.map Prod.fst)
    simp only [List.append_assoc] at this
    refine List.Perm.trans ?_ this
    refine List.Perm.append_left _ (List.Perm.append_left _ (List.Perm.append_left _ ?_))
    exact (eraseP_perm hp hc).append_right _
  · intro x hx
    rcases hx with hx | hx
    · exact .inl hx
    · obtain ⟨q, hq, hqc⟩ := List.mem_map.1 hx
      exact .inr (List.mem_map.2 ⟨q, List.mem_of_mem_eraseP hq, hqc⟩)

theorem complete_acc {g : Graph F L} {s : State F L} {c : Nat} {f : Option F} (h : Acc g s [])
    (hc : ∃ p ∈ s.finished, p.1 = c) (hd : (s.complete g c f).dead = none) (hd0 : s.dead = none) :
    Acc g (s.complete g c f) [] := by
  obtain ⟨p, hp, hpc⟩ := hc
  have ht := taken_finished hp hpc
  have hcf : c ∈ s.finished.map Prod.fst := List.mem_map.2 ⟨p, hp, hpc⟩
  have hcl : c ∈ s.lists := by unfold State.lists; simp only [List.mem_append]; exact .inr (.inr (.inr (.inl hcf)))
  unfold State.complete at hd ⊢
  simp only at hd ⊢
  cases hx : (s.ctx c).error with
  | some m => simp only; exact endCtx_acc h ht _
  | none =>
    rw [hx] at hd
    cases f with
    | some f => exact endCtx_acc h ht _
    | none =>
      simp only at hd ⊢
      split at hd
      · cases hd
      · next hr =>
        split at hd
        · cases hd
        · next hn =>
          rw [if_neg hr, if_neg hn]
          refine sort_acc (attachAll_acc ?_)
          generalize hs1 : ({ s with finished := s.finished.eraseP (fun p => p.1 == c) } : State F L) = s1 at ht
          generalize hy : (s.ctx c).wait = y
          have hpos : 0 < y.pending := by
            rw [← hy]
            exact List.length_pos_iff.2 hr
          have y1 : y.key = (s.ctx c).key := by rw [← hy]; rfl
          have y2 : y.external = (s.ctx c).external := by rw [← hy]; rfl
          have y3 : y.notify = (s.ctx c).notify := by rw [← hy]; rfl
          have y4 : y.first = false := by
            rw [← hy]
            show (s.ctx c).first = false
            cases hf : (s.ctx c).first with
            | false => rfl
            | true => have := h.first_run c hf (.inr hcf); rw [hx] at this; cases this
          have y5 : y.pending = (s.ctx c).reqs.length := by rw [← hy]; rfl
          have hnd := ht.lists.nodup_iff.1 h.nodup
          obtain ⟨hc1, hnd1⟩ := List.nodup_cons.1 hnd
          have hsub : ∀ x ∈ s1.lists, x ∈ s.lists := fun x hx =>
            ht.lists.mem_iff.2 (List.mem_cons_of_mem _ hx)
          have hback : ∀ x, x ≠ c → x ∈ s.lists → x ∈ s1.lists := fun x e hx =>
            (List.mem_cons.1 (ht.lists.mem_iff.1 hx)).resolve_left e
          have hself : (s1.setCtx c y).ctx c = y := upd_self ..
          have hne : ∀ x, x ≠ c → (s1.setCtx c y).ctx x = s.ctx x := fun x e => by
            rw [← ht.ctx]; exact upd_ne _ _ e
          have a1 : ∀ x, ((s1.setCtx c y).ctx x).key = (s.ctx x).key := by
            intro x; by_cases e : x = c
            · rw [e, hself, y1]
            · rw [hne x e]
          have a2 : ∀ x, ((s1.setCtx c y).ctx x).external = (s.ctx x).external := by
            intro x; by_cases e : x = c
            · rw [e, hself, y2]
            · rw [hne x e]
          have a3 : ∀ x, ((s1.setCtx c y).ctx x).notify = (s.ctx x).notify := by
            intro x; by_cases e : x = c
            · rw [e, hself, y3]
            · rw [hne x e]
          refine ⟨hnd1, ?_, ?_, ?_, ?_, ?_, ?_, ?_, ?_, ?_, ?_, ?_, ?_, ?_, ?_⟩
          · intro x hx
            show x < s1.next
            rw [ht.next]; exact h.lt x (hsub x hx)
          · intro x hx
            have hx' : s1.next ≤ x := hx
            rw [ht.next] at hx'
            have : x ≠ c := fun e => by have := h.lt c hcl; omega
            rw [hne x this]; exact h.blank x hx'
          · show (s1.all.map Prod.fst).Nodup
            rw [ht.all]; exact h.keys
          · intro e he
            rw [a1, a2]
            show e.2 < s1.next ∧ _
            rw [ht.next]
            exact h.all_ok e (ht.all ▸ he)
          · intro x
            have ho : owed (s1.setCtx c y).ctx (s1.setCtx c y).all x = owed s.ctx s.all x := by
              show owed (s1.setCtx c y).ctx s1.all x = _
              rw [ht.all]
              exact owed_congr (fun e _ => a3 e.2)
            rw [ho]
            have hb := h.bal x
            rw [List.count_nil, Nat.zero_add] at hb
            rw [← hb]
            by_cases e : x = c
            · rw [e, hself, y5, List.count_replicate_self, h.idle c hcl]; omega
            · rw [hne x e, List.count_replicate, if_neg (by simpa using fun a => e a.symm)]; omega
          · intro x hx
            have : x ≠ c := by rintro rfl; exact hc1 hx
            rw [hne x this]; exact h.idle x (hsub x hx)
          · intro x hx1 hor
            show (_, x) ∈ s1.all
            rw [ht.all, a1]
            rw [a2] at hx1
            refine h.mem_all x hx1 ?_
            by_cases e : x = c
            · exact .inl (e ▸ hcl)
            · rw [hne x e] at hor
              exact hor.imp_left (hsub x)
          · intro e he
            have he' : e ∈ s.all := ht.all ▸ he
            by_cases ec : e.2 = c
            · right; rw [ec, hself]; exact hpos
            · rw [hne _ ec]
              exact (h.live e he').imp_left (hback _ ec)
          · intro x; rw [a2, a3]; exact h.ext_notify x
          · intro q hq; rw [a2]; exact h.ret_ext q (ht.returning q hq)
          · intro x hx1 hx2
            rw [a2] at hx2
            have hx1' : x < s1.next := hx1
            rw [ht.next] at hx1'
            by_cases e : x = c
            · right; left; rw [e, hself]; exact hpos
            · rw [hne x e]
              show _ ∨ _ ∨ Answered s1.trace x
              rw [ht.trace]
              exact (h.answered x hx1' hx2).imp_left (hback x e)
          · intro x hx1
            have hx1' : Answered s1.trace x := hx1
            rw [ht.trace] at hx1'
            obtain ⟨b1, b2, b3⟩ := h.ans_out x hx1'
            have e : x ≠ c := by rintro rfl; exact b2 hcl
            rw [hne x e]
            exact ⟨b1, fun hy => b2 (hsub x hy), b3⟩
          · intro x hx1
            have e : x ≠ c := by rintro rfl; rw [hself, y4] at hx1; cases hx1
            rw [hne x e] at hx1 ⊢; exact h.first_ok x hx1
          · intro x hx1 ho
            have e : x ≠ c := by rintro rfl; rw [hself, y4] at hx1; cases hx1
            rw [hne x e] at hx1 ⊢
            exact h.first_run x hx1 (ht.work x ho)

theorem callback_acc {g : Graph F L} {s : State F L} {c : Nat} {r : Except String F} (h : Acc g s [])
    (hc : ∃ p ∈ s.returning, p.1 = c) : Acc g (s.callback c r) [] := by
  obtain ⟨p, hp, hpc⟩ := hc
  have hl : List.Perm s.lists (c :: (s.callback c r).lists) := by
    unfold State.lists
    have := List.perm_middle (a := c) (l₁ := s.tasks ++ (s.alt ++ (s.running.map Job.c ++ s.finished.map Prod.fst)))
      (l₂ := (s.returning.eraseP (fun p => p.1 == c)).map Prod.fst)
    simp only [List.append_assoc] at this
    refine List.Perm.trans ?_ this
    refine List.Perm.append_left _ (List.Perm.append_left _ (List.Perm.append_left _ (List.Perm.append_left _ ?_)))
    exact eraseP_perm hp hpc
  have hnd := hl.nodup_iff.1 h.nodup
  obtain ⟨hc1, hnd1⟩ := List.nodup_cons.1 hnd
  have hcl : c ∈ s.lists := hl.mem_iff.2 (List.mem_cons_self ..)
  have hsub : ∀ x ∈ (s.callback c r).lists, x ∈ s.lists := fun x hx =>
    hl.mem_iff.2 (List.mem_cons_of_mem _ hx)
  have hback : ∀ x, x ≠ c → x ∈ s.lists → x ∈ (s.callback c r).lists := fun x e hx =>
    (List.mem_cons.1 (hl.mem_iff.1 hx)).resolve_left e
  have hext : (s.ctx c).external = true := by rw [← hpc]; exact h.ret_ext p hp
  have htr : ∀ x, Answered (s.callback c r).trace x ↔ x = c ∨ Answered s.trace x := by
    intro x
    constructor
    · rintro ⟨k, r', hm⟩
      rcases List.mem_append.1 hm with hm | hm
      · exact .inr ⟨k, r', hm⟩
      · have := List.mem_singleton.1 hm
        injection this with e1 e2 e3
        exact .inl e1
    · rintro (rfl | ⟨k, r', hm⟩)
      · exact ⟨_, _, List.mem_append_right _ (List.mem_singleton.2 rfl)⟩
      · exact ⟨k, r', List.mem_append_left _ hm⟩
  refine ⟨hnd1, fun x hx => h.lt x (hsub x hx), h.blank, h.keys, h.all_ok, h.bal, fun x hx => h.idle x (hsub x hx),
    ?_, ?_, h.ext_notify, ?_, ?_, ?_, h.first_ok, h.first_run⟩
  · intro x hx ho
    exact h.mem_all x hx (ho.imp_left (hsub x))
  · intro e he
    have : e.2 ≠ c := fun ec => by
      have := (h.all_ok e he).2.2
      rw [ec, hext] at this; cases this
    exact (h.live e he).imp_left (hback _ this)
  · intro q hq; exact h.ret_ext q (List.mem_of_mem_eraseP hq)
  · intro x h1 h2
    rw [htr]
    by_cases e : x = c
    · exact .inr (.inr (.inl e))
    · rcases h.answered x h1 h2 with h3 | h3 | h3
      · exact .inl (hback x e h3)
      · exact .inr (.inl h3)
      · exact .inr (.inr (.inr h3))
  · intro x hx
    rw [htr] at hx
    rcases hx with rfl | hx
    · exact ⟨hext, hc1, h.idle x hcl⟩
    · obtain ⟨b1, b2, b3⟩ := h.ans_out x hx
      exact ⟨b1, fun hy => b2 (hsub x hy), b3⟩

theorem swap_acc {g : Graph F L} {s : State F L} (h : Acc g s []) : Acc g s.swap [] := by
  refine h.move rfl rfl rfl (fun _ => Iff.rfl) ?_ h.ret_ext h.first_run
  show List.Perm (s.alt ++ (s.tasks ++ _)) (s.tasks ++ (s.alt ++ _))
  rw [← List.append_assoc, ← List.append_assoc s.tasks]
  exact List.perm_append_comm.append_right _

theorem flush_acc {g : Graph F L} {s : State F L} (h : Acc g s []) : Acc g { s with flush := true } [] :=
  h.move rfl rfl rfl (fun _ => Iff.rfl) (List.Perm.refl _) h.ret_ext h.first_run

/-- A step, taken apart. -/
inductive Step (g : Graph F L) (s : State F L) : Action F L → State F L → Prop where
  | request (k : Key) (reserve : Bool) : Step g s (.request k reserve) (s.request g k reserve)
  | setFlush : Step g s .setFlush { s with flush := true }
  | hit {hit : Key → Option F} {full : Key → Bool} {c : Nat} {f : F} :
      s.pick g hit full s.tasks [] = .hit c f → c ∈ s.tasks → (s.ctx c).first = true →
      hit (s.ctx c).key = some f → Step g s (.start hit full) (s.hit c f)
  | call {hit : Key → Option F} {full : Key → Bool} {c : Nat} {serial : Bool} :
      s.pick g hit full s.tasks [] = .call c serial → c ∈ s.tasks →
      serial = useSerial (g.mode (s.ctx c).key.1) (s.ctx c).first →
      (serial = true → s.blocked g c = false) → Step g s (.start hit full) (s.call g c serial)
  | swap {hit : Key → Option F} {full : Key → Bool} : s.pick g hit full s.tasks [] = .none →
      s.flush = true → s.running = [] → s.finished = [] → s.returning = [] →
      Step g s (.start hit full) s.swap
  | ret {o : Outcome F L} {j : Job} : j ∈ s.running → Step g s (.ret j.c o) (s.ret g j.c j.serial o)
  | complete {p : Nat × Option F} : p ∈ s.finished → Step g s (.complete p.1) (s.complete g p.1 p.2)
  | callback {p : Nat × Except String F} : p ∈ s.returning → Step g s (.callback p.1) (s.callback p.1 p.2)

theorem step_cases {g : Graph F L} {s s' : State F L} {a : Action F L} (h : s.step g a = some s') :
    s.dead = none ∧ Step g s a s' := by
  unfold State.step at h
  split at h
  · cases h
  · next hd =>
    refine ⟨by simpa using hd, ?_⟩
    cases a with
    | request k reserve => injection h with h; subst h; exact .request k reserve
    | setFlush => injection h with h; subst h; exact .setFlush
    | start hit full =>
      simp only at h
      split at h
      · next c f hp =>
        injection h with h; subst h
        obtain ⟨h1, h2, h3⟩ := pick_hit hp
        exact .hit hp h1 h2 h3
      · next c serial hp =>
        injection h with h; subst h
        obtain ⟨h1, h2, h3⟩ := pick_call hp
        exact .call hp h1 h2 h3
      · next hp =>
        split at h
        · next hc =>
          injection h with h; subst h
          simp only [Bool.and_eq_true, List.isEmpty_iff] at hc
          exact .swap hp hc.1.1.1 hc.1.1.2 hc.1.2 hc.2
        · cases h
    | ret c o =>
      simp only at h
      split at h
      · next p hp =>
        injection h with h; subst h
        have e : p.c = c := by simpa using List.find?_some hp
        rw [← e]
        exact .ret (List.mem_of_find?_eq_some hp)
      · cases h
    | complete c =>
      simp only at h
      split at h
      · next p hp =>
        injection h with h; subst h
        have e : p.1 = c := by simpa using List.find?_some hp
        rw [← e]
        exact .complete (List.mem_of_find?_eq_some hp)
      · cases h
    | callback c =>
      simp only at h
      split at h
      · next p hp =>
        injection h with h; subst h
        have e : p.1 = c := by simpa using List.find?_some hp
        rw [← e]
        exact .callback (List.mem_of_find?_eq_some hp)
      · cases h

theorem step_acc {g : Graph F L} {s s' : State F L} {a : Action F L} (h : Acc g s [])
    (hs : s.step g a = some s') (hd : s'.dead = none) : Acc g s' [] := by
  obtain ⟨hd0, hs⟩ := step_cases hs
  cases hs with
  | request k reserve => exact request_acc h k reserve
  | setFlush => exact flush_acc h
  | hit _ hc _ _ => exact hit_acc h hc
  | call _ hc _ _ => exact call_acc h hc
  | swap => exact swap_acc h
  | ret hj => exact ret_acc h ⟨_, hj, rfl⟩
  | complete hp => exact complete_acc h ⟨_, hp, rfl⟩ hd hd0
  | callback hp => exact callback_acc h ⟨_, hp, rfl⟩

theorem init_acc (g : Graph F L) : Acc g (State.init g) [] := by
  refine ⟨List.nodup_nil, ?_, fun _ _ => rfl, List.nodup_nil, ?_, fun _ => rfl, ?_, ?_, ?_, fun _ _ => rfl, ?_, ?_, ?_,
    ?_, ?_⟩
  · intro c hc; cases hc
  · intro c hc; cases hc
  · intro c hc; cases hc
  · rintro c _ (hc | hc)
    · cases hc
    · exact absurd hc (Nat.lt_irrefl 0)
  · intro c hc; cases hc
  · intro c hc; cases hc
  · intro c hc; cases hc
  · rintro c ⟨_, _, hc⟩; cases hc
  · intro c hc; cases hc
  · intro c hc; cases hc

theorem run_acc {g : Graph F L} {as : List (Action F L)} {s : State F L} (h : Run g as s)
    (hd : s.dead = none) : Acc g s [] := by
  induction h with
  | nil => exact init_acc g
  | snoc h1 h2 h3 ih => exact step_acc (ih (step_cases h3).1) h3 hd

end VS.Pool
