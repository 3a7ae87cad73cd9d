import Verif.Pool.Term

/-!
# Every step lowers the amount of work left
-/

namespace VS.Pool

variable {F : Type} {P : Program F} {rank : Nat → Nat} {g : Graph F (Kept F)}

/-- The total follows the one computation that changes. -/
theorem work_one {s s' : State F (Kept F)} {c : Nat} (hc : c < s.next) (hn : s'.next = s.next) (hf : s'.flush = s.flush)
    (h : ∀ x < s.next, x ≠ c → pot P rank s' x = pot P rank s x) (hlt : pot P rank s' c < pot P rank s c) :
    work P rank s' < work P rank s := by
  unfold work
  rw [hn, hf]
  have := sumTo_one hc h
  omega

theorem mem_map_cons {p : Nat × Except String F} {l : List (Nat × Except String F)} {x : Nat} (hx : x ≠ p.1) :
    x ∈ (p :: l).map Prod.fst ↔ x ∈ l.map Prod.fst := by
  rw [List.map_cons, List.mem_cons]
  exact ⟨fun h => h.resolve_left hx, .inr⟩

theorem work_end {s s' : State F (Kept F)} (h : Acc g s []) (h' : Acc g s' []) {c : Nat} {r : Except String F}
    (e : EndEff s s' c r) (hlt : 8 ≤ pot P rank s c) : work P rank s' < work P rank s := by
  have hcl := e.lists h
  have hc : c < s.next := h.lt c hcl
  have hnot : ∀ x ∈ (s.ctx c).notify, 0 < (s.ctx x).pending ∧ x ≠ c := fun x hx =>
    ⟨(h.pending_of_notify hcl hx).1, (h.pending_of_notify hcl hx).2.2⟩
  have hcnt : ∀ x, x ∉ (s.ctx c).notify → s'.ctx x = s.ctx x := by
    intro x hx
    have := e.gets x
    rw [List.count_eq_zero.2 hx] at this
    exact this.zero
  have hcc : c ∉ (s.ctx c).notify := fun hx => (hnot c hx).2 rfl
  refine work_one hc e.rest.next e.rest.flush ?_ ?_
  · intro x hx hne
    have hret : x ∈ s'.returning.map Prod.fst ↔ x ∈ s.returning.map Prod.fst := by
      rw [e.returning]
      split
      · exact mem_map_cons hne
      · rfl
    have hq : Queued s' x ↔ Queued s x := by
      by_cases hm : x ∈ (s.ctx c).notify
      · refine ⟨fun _ => .inr (.inr (hnot x hm).1), fun _ => ?_⟩
        cases hp : (s'.ctx x).pending with
        | zero => exact .inl ((e.tasks x).2 (.inr ⟨hm, hp⟩))
        | succ n => exact .inr (.inr (by rw [hp]; omega))
      · unfold Queued
        rw [e.tasks x, e.rest.alt, hcnt x hm]
        refine ⟨?_, ?_⟩
        · intro h1
          rcases h1 with h1 | h1
          · rcases h1 with h1 | h1
            · exact .inl h1.1
            · exact absurd h1.1 hm
          · exact .inr h1
        · rintro (h1 | h1)
          · exact .inl (.inl ⟨h1, hne⟩)
          · exact .inr h1
    have hs := (e.gets x).same
    refine pot_congr h h' hq (fun j _ => by rw [e.rest.running]) ?_ hret hs.key hs.first hs.loc hs.reqs ?_
    · rintro p rfl
      rw [e.finished p]
      exact ⟨fun hx => hx.1, fun hx => ⟨hx, hne⟩⟩
    · intro hf
      by_cases hm : x ∈ (s.ctx c).notify
      · have hp := (hnot x hm).1
        have := (h.first_ok x (hf (.inr (.inr hp)))).1
        omega
      · rw [hcnt x hm]
  · have hout : pot P rank s' c ≤ 5 := by
      rw [pot_out]
      · split <;> omega
      · rintro (h1 | h1 | h1)
        · rcases (e.tasks c).1 h1 with h1 | h1
          · exact h1.2 rfl
          · exact hcc h1.1
        · rw [e.rest.alt] at h1
          rcases e.work with h2 | h2
          · exact (h.disj_tasks h2).1 h1
          · exact (h.disj_fin h2).2.1 h1
        · rw [hcnt c hcc, h.idle c hcl] at h1
          omega
      · rw [e.rest.running]
        rcases e.work with h2 | h2
        · exact (h.disj_tasks h2).2.1
        · exact (h.disj_fin h2).2.2.1
      · intro hx
        obtain ⟨p, hp, e1⟩ := List.mem_map.1 hx
        exact ((e.finished p).1 hp).2 e1
    omega

theorem queW_ge (hP : P.Acyclic rank) (x : Ctx F (Kept F)) : 10 ≤ queW P rank x := by
  unfold queW
  split
  · split
    · exact Nat.le_refl _
    · rw [P.weight_eq hP]; exact weight_ge _ _ _
  · exact nextW_ge _ _ _

theorem work_call (hP : P.Acyclic rank) {s s' : State F (Kept F)} (h : Acc g s []) (h' : Acc g s' []) {c : Nat} {serial : Bool}
    (e : CallEff g s s' c serial) : work P rank s' < work P rank s := by
  have hc : c < s.next := h.lt c (h.mem_lists.2 (.inl e.mem))
  have hj : (⟨c, serial, (s.ctx c).reason⟩ : Job) ∈ s'.running := by rw [e.running]; exact List.mem_cons_self ..
  refine work_one hc e.next e.flush ?_ ?_
  · intro x hx hne
    have e0 := e.other x hne
    refine pot_congr h h' ?_ ?_ (fun p _ => by rw [e.finished]) (by rw [e.returning]) (by rw [e0]) (by rw [e0])
      (by rw [e0]) (by rw [e0]) (fun _ => by rw [e0])
    · unfold Queued
      rw [e0, e.alt, e.tasks x]
      refine ⟨fun h1 => h1.imp And.left id, fun h1 => h1.imp (fun h2 => ⟨h2, hne⟩) id⟩
    · rintro j rfl
      rw [e.running, List.mem_cons]
      refine ⟨fun h1 => h1.resolve_left (fun e1 => hne (by rw [e1])), .inr⟩
  · rw [pot_queued (.inl e.mem)]
    have h1 := pot_running (P := P) (rank := rank) h' hj
    simp only at h1
    rw [h1]
    have hge := queW_ge hP (s.ctx c)
    have hk : (s'.ctx c).key = (s.ctx c).key := by rw [e.self]
    have hl : (s'.ctx c).loc = (s.ctx c).loc := by rw [e.self]
    cases hr : (s.ctx c).reason with
    | error => show 9 < _; omega
    | ready =>
      unfold jobW queW at *
      rw [reason_ready hr, hl] at *
      simp only [Bool.false_eq_true, if_false] at *
      omega
    | initial =>
      unfold jobW queW at *
      unfold Ctx.reason at hr
      rw [hk]
      split at hr
      · cases hr
      · next h2 =>
        split at hr
        · cases hr
        · next h3 =>
          have h3 : (s.ctx c).first = true := by simpa using h3
          rw [h3] at hge ⊢
          simp only [if_true, h2, Bool.false_eq_true, if_false] at *
          omega

theorem work_ret (hP : P.Acyclic rank) {s s' : State F (Kept F)} (hi : Inv (P.graph rank) s) (h' : Acc (P.graph rank) s' [])
    (hd : Det P rank s) {j : Job}
    {o : Outcome F (Kept F)} (e : RetEff (P.graph rank) s s' j o)
    (hl : (P.graph rank).filter (s.ctx j.c).key j.reason (s.ctx j.c).loc (s.ctx j.c).avail o) :
    work P rank s' < work P rank s := by
  have h := hi.acc
  have hjm : j.c ∈ s.running.map Job.c := List.mem_map.2 ⟨j, e.mem, rfl⟩
  have hc : j.c < s.next := h.lt _ (h.mem_lists.2 (.inr (.inr (.inl hjm))))
  have hreqs : (s.ctx j.c).reqs = [] := hi.ser.noreq _ (.inr (.inr (.inl hjm)))
  refine work_one hc e.next e.flush ?_ ?_
  · intro x hx hne
    have e0 := e.other x hne
    refine pot_congr h h' ?_ ?_ ?_ (by rw [e.returning]) (by rw [e0]) (by rw [e0])
      (by rw [e0]) (by rw [e0]) (fun _ => by rw [e0])
    · unfold Queued
      rw [e0, e.alt, e.tasks]
    · rintro i rfl
      rw [e.running]
      exact ⟨And.left, fun h1 => ⟨h1, hne⟩⟩
    · rintro p rfl
      rw [e.finished, List.mem_cons]
      refine ⟨fun h1 => h1.resolve_left (fun e1 => hne (by rw [e1])), .inr⟩
  · rw [pot_running h e.mem]
    have hp : (j.c, o.frame) ∈ s'.finished := by rw [e.finished]; exact List.mem_cons_self ..
    have h1 := pot_finished (P := P) (rank := rank) h' hp
    simp only at h1
    rw [h1, e.self]
    have hfin : ∀ p : Prog F, p.does o → finW P rank ((s.ctx j.c).after (P.graph rank) o) o.frame <
        p.weight (fun q => P.weight rank (P.last q)) (fun q => P.eval rank (P.last q)) - 1 := by
      intro p hp
      have hge := weight_ge (fun q => P.weight rank (P.last q)) (fun q => P.eval rank (P.last q)) p
      unfold finW
      rcases does_weight (P := P) (rank := rank) hp with hx | ⟨hx1, hx2, hx3⟩
      · rw [if_pos]
        · omega
        · unfold Ctx.after
          rcases hx with hx | hx
          · simp [hx]
          · simp only [Option.isSome_or, hx, Bool.or_true]
      · split
        · omega
        · rw [hx3]
          unfold Ctx.after
          simp only [hreqs, List.nil_append]
          have : o.reqs.map (P.graph rank).clamp = o.reqs.map P.last := List.map_congr_left (fun q _ => rfl)
          rw [this]
          omega
    obtain ⟨_, hl⟩ := hl
    cases hr : j.reason with
    | initial =>
      rw [hr] at hl
      unfold jobW
      simp only
      rw [P.weight_eq hP]
      exact hfin _ hl
    | ready =>
      rw [hr] at hl
      obtain ⟨ks, next, fs, e1, e2, e3⟩ := hl
      unfold jobW
      simp only
      rw [e1]
      have hc : collect (fun q => P.eval rank (P.last q)) ks = some fs := by
        refine collect_le e2 ?_
        intro q hq f hf
        refine hd.av j.c _ f ?_
        obtain ⟨ks', next', ha, hn⟩ := hd.run j e.mem hr
        rw [ha.loc] at e1
        injection e1 with e1
        injection e1 with e1 e4
        subst e1; subst e4
        have hnn := hn q hq
        have : (if P.numFrames q.1 ≠ 0 ∧ q.2 ≥ P.numFrames q.1 then (q.1, P.numFrames q.1 - 1) else q) = P.last q := by
          unfold Program.last at hnn ⊢
          by_cases hcc : q.2 ≥ P.numFrames q.1
          · rw [if_pos hcc] at hnn ⊢
            simp only at hnn
            rw [if_pos ⟨by omega, hcc⟩]
          · rw [if_neg hcc, if_neg (fun hx => hcc hx.2)]
        rw [this] at hf
        exact lookup_some hf
      unfold Program.nextW
      simp only
      rw [hc]
      exact hfin _ e3
    | error =>
      have := (hi.ser.reason j e.mem).1 hr
      unfold jobW finW
      rw [if_pos]
      · show 8 < 9; omega
      · unfold Ctx.after
        simp [this]

theorem keys_inj {l : List (Key × Nat)} (h : (l.map Prod.fst).Nodup) {k : Key} {x y : Nat} (hx : (k, x) ∈ l)
    (hy : (k, y) ∈ l) : x = y := by
  induction l with
  | nil => cases hx
  | cons a t ih =>
    rw [List.map_cons, List.nodup_cons] at h
    rcases List.mem_cons.1 hx with h1 | h1 <;> rcases List.mem_cons.1 hy with h2 | h2
    · rw [← h1] at h2
      injection h2 with _ h2
      exact h2.symm
    · exact absurd (List.mem_map.2 ⟨_, h2, by rw [← h1]⟩) h.1
    · exact absurd (List.mem_map.2 ⟨_, h1, by rw [← h2]⟩) h.1
    · exact ih h.2 h1 h2

theorem mem_eraseP_fst {l : List (Nat × Except String F)} {c x : Nat} (h : (l.map Prod.fst).Nodup) :
    x ∈ (l.eraseP (fun q => q.1 == c)).map Prod.fst ↔ x ∈ l.map Prod.fst ∧ x ≠ c := by
  by_cases hc : c ∈ l.map Prod.fst
  · obtain ⟨p, hp, hpc⟩ := List.mem_map.1 hc
    have hperm := eraseP_perm (f := Prod.fst) hp hpc
    have hn := hperm.nodup_iff.1 h
    rw [List.nodup_cons] at hn
    rw [hperm.mem_iff, List.mem_cons]
    exact ⟨fun h1 => ⟨.inr h1, fun e => hn.1 (e ▸ h1)⟩, fun h1 => h1.1.resolve_left h1.2⟩
  · rw [List.eraseP_of_forall_not]
    · exact ⟨fun h1 => ⟨h1, fun e => hc (e ▸ h1)⟩, And.left⟩
    · intro a ha e
      exact hc (List.mem_map.2 ⟨a, ha, by simpa using e⟩)

theorem work_wait {s s' : State F (Kept F)} (h : Acc g s []) (h' : Acc g s' []) {c : Nat}
    (e : WaitEff g s s' c) (hfirst : (s.ctx c).first = false) : work P rank s' < work P rank s := by
  have hm : c ∈ s.finished.map Prod.fst := List.mem_map.2 ⟨_, e.mem, rfl⟩
  have hdj := h.disj_fin hm
  have hc : c < s.next := h.lt _ (h.mem_lists.2 (.inr (.inr (.inr (.inl hm)))))
  obtain ⟨m, hnext⟩ : ∃ m, s'.next = s.next + m := ⟨s'.next - s.next, by have := e.next; omega⟩
  have hold : ∀ x < s.next, x ≠ c → pot P rank s' x = pot P rank s x := by
    intro x hx hne
    have e0 := e.old x hx hne
    refine pot_congr h h' ?_ (fun j _ => by rw [e.running]) ?_ (by rw [e.returning]) e0.key e0.first e0.loc e0.reqs
      (fun _ => e0.error)
    · unfold Queued
      rw [e.alt, e0.pending, e.tasks x]
      refine ⟨fun h1 => h1.imp (fun h2 => h2.resolve_right (by omega)) id, fun h1 => h1.imp .inl id⟩
    · rintro p rfl
      rw [e.finished p]
      exact ⟨And.left, fun h1 => ⟨h1, hne⟩⟩
  have hself : pot P rank s' c = P.nextW rank (s.ctx c).loc := by
    rw [pot_queued]
    · unfold queW
      rw [e.self.first, e.self.loc]
      have : (s.ctx c).wait.first = false := hfirst
      rw [this]
      rfl
    · refine .inr (.inr ?_)
      rw [e.self.pending]
      exact List.length_pos_iff.2 e.reqs
  have hpot : pot P rank s c = 8 + ((s.ctx c).reqs.map (P.weight rank)).sum + P.nextW rank (s.ctx c).loc := by
    have h1 := pot_finished (P := P) (rank := rank) h e.mem
    simp only at h1
    rw [h1]
    unfold finW
    rw [e.error]
    rfl
  have hnew : sumTo (fun x => pot P rank s' (s.next + x)) m ≤ ((s.ctx c).reqs.map (P.weight rank)).sum := by
    have e1 : sumTo (fun x => pot P rank s' (s.next + x)) m =
        sumTo (fun x => P.weight rank ((fun y => (s'.ctx (s.next + y)).key) x)) m := by
      refine sumTo_congr (fun x hx => ?_)
      obtain ⟨b1, _, _⟩ := e.new (s.next + x) (by omega) (by omega)
      rw [pot_queued (.inl ((e.tasks _).2 (.inr ⟨by omega, by omega⟩)))]
      unfold queW
      rw [b1.first, b1.error]
      rfl
    rw [e1]
    refine sumTo_sub m _ ?_ ?_
    · intro x hx y hy hxy
      obtain ⟨_, _, b3⟩ := e.new (s.next + x) (by omega) (by omega)
      obtain ⟨_, _, b4⟩ := e.new (s.next + y) (by omega) (by omega)
      rw [hxy] at b3
      have := keys_inj h'.keys b3 b4
      omega
    · intro x hx
      exact (e.new (s.next + x) (by omega) (by omega)).2.1
  have h1 := sumTo_one hc hold
  unfold work
  rw [hnext, e.flush, sumTo_add]
  omega

/-- The steps of the scheduler itself. -/
def Action.work {L : Type} : Action F L → Bool
  | .request _ _ => false
  | .setFlush => false
  | _ => true

theorem work_step (hP : P.Acyclic rank) {s s' : State F (Kept F)} {a : Action F (Kept F)}
    (hi : Inv (P.graph rank) s) (hi' : Inv (P.graph rank) s') (hl : a.legal (P.graph rank) s)
    (hd : Det P rank s) (e : Eff (P.graph rank) s s' a) (ha : a.work = true) :
    VS.Pool.work P rank s' < VS.Pool.work P rank s := by
  have h := hi.acc
  have h' := hi'.acc
  cases e with
  | request => cases ha
  | setFlush => cases ha
  | @hit _ _ c _ _ hm hf hh hr e =>
    refine work_end h h' e ?_
    rw [pot_queued (.inl hm)]
    have := queW_ge hP (s.ctx c)
    exact Nat.le_trans (by omega) this
  | call e => exact work_call hP h h' e
  | swap h1 h2 h3 h4 h5 e =>
    unfold VS.Pool.work
    have hp : sumTo (pot P rank s') s'.next = sumTo (pot P rank s) s'.next := by
      refine sumTo_congr (fun x _ => ?_)
      subst e
      refine pot_congr h h' ?_ (fun _ _ => Iff.rfl) (fun _ _ => Iff.rfl) Iff.rfl rfl rfl rfl rfl (fun _ => rfl)
      unfold Queued State.swap
      simp only
      exact ⟨fun h1 => by rcases h1 with h1 | h1 | h1 <;> simp [h1], fun h1 => by rcases h1 with h1 | h1 | h1 <;> simp [h1]⟩
    rw [hp]
    subst e
    show sumTo _ s.next + (if false then 1 else 0) < sumTo _ s.next + _
    rw [h2]
    simp
  | ret e => exact work_ret hP hi h' hd e (hl _ e.mem rfl)
  | @done p r hp hr e =>
    refine work_end h h' e ?_
    rw [pot_finished h hp]
    unfold finW
    split <;> omega
  | @wait c e =>
    refine work_wait h h' e ?_
    have hm : c ∈ s.finished.map Prod.fst := List.mem_map.2 ⟨_, e.mem, rfl⟩
    cases hx : (s.ctx c).first with
    | false => rfl
    | true =>
      have := h.first_run c hx (.inr hm)
      rw [e.error] at this; cases this
  | @callback p hp e =>
    have hm : p.1 ∈ s.returning.map Prod.fst := List.mem_map.2 ⟨p, hp, rfl⟩
    have hc : p.1 < s.next := h.lt _ (h.mem_lists.2 (.inr (.inr (.inr (.inr hm)))))
    have hnd : (s.returning.map Prod.fst).Nodup := by
      have hn := h.nodup
      unfold State.lists at hn
      exact (List.nodup_append.1 (List.nodup_append.1 (List.nodup_append.1 (List.nodup_append.1 hn).2.1).2.1).2.1).2.1
    have hret : s'.returning = s.returning.eraseP (fun q => q.1 == p.1) := by subst e; rfl
    have hmem : ∀ x, x ∈ s'.returning.map Prod.fst ↔ x ∈ s.returning.map Prod.fst ∧ x ≠ p.1 := by
      intro x
      rw [hret]
      exact mem_eraseP_fst hnd
    have e1 : s'.ctx = s.ctx ∧ s'.tasks = s.tasks ∧ s'.alt = s.alt ∧ s'.running = s.running ∧ s'.finished = s.finished ∧
        s'.next = s.next ∧ s'.flush = s.flush := by subst e; exact ⟨rfl, rfl, rfl, rfl, rfl, rfl, rfl⟩
    obtain ⟨k1, k2, k3, k4, k5, k6, k7⟩ := e1
    have hqq : ∀ x, Queued s' x ↔ Queued s x := by
      intro x
      unfold Queued
      rw [k1, k2, k3]
    refine work_one hc k6 k7 ?_ ?_
    · intro x hx hne
      refine pot_congr h h' (hqq x) (fun _ _ => by rw [k4]) (fun _ _ => by rw [k5]) ?_ (by rw [k1]) (by rw [k1]) (by rw [k1])
        (by rw [k1]) (fun _ => by rw [k1])
      rw [hmem x]
      exact ⟨And.left, fun h1 => ⟨h1, hne⟩⟩
    · have hq : ¬ Queued s p.1 := fun hx => (h.queued_out hx).2.2 hm
      have hr : p.1 ∉ s.running.map Job.c := fun hx => (h.disj_run hx).2.2.2 hm
      have hf : p.1 ∉ s.finished.map Prod.fst := fun hx => (h.disj_fin hx).2.2.2 hm
      rw [pot_out hq hr hf, if_pos hm, pot_out (fun hx => hq ((hqq _).1 hx)) (by rw [k4]; exact hr) (by rw [k5]; exact hf),
        if_neg (fun hx => ((hmem _).1 hx).2 rfl)]
      omega

end VS.Pool
