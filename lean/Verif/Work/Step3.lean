import Verif.Work.Step2

/-!
# Every schedule of the threads is a schedule of the scheduler
-/

namespace VS.Work

open VS.Pool (Key Graph Outcome Job Answered Event)

variable {F L : Type}

/-- The threads after a note that memory may have become free, src/core/vsthreadpool.cpp:262-272. -/
def State.noted (s : State F L) (note : Option Nat) : List Worker :=
  match note with
  | some w => if s.idle > 0 then notifyOne s.ws w else s.ws
  | none => s.ws

theorem noted_woke (s : State F L) (note : Option Nat) : Woke s.ws (s.noted note) := by
  unfold State.noted
  split
  · split
    · exact notifyOne_woke _ _
    · exact Woke.refl _
  · exact Woke.refl _

/-- The steps one by one. -/
inductive Move (g : Graph F L) (s : State F L) : Action F L → State F L → Prop where
  | request (k : Key) (async over : Bool) (who : Nat) : Move g s (.request k async over who)
      (if s.pool.flush then
        { s with pool := s.pool.request g k false, async := if async then s.pool.next :: s.async else s.async }
      else ({ s with pool := s.pool.request g k false
                     async := if async then s.pool.next :: s.async else s.async } : State F L).wakeThread over who)
  | block {i : Nat} {p : At} {k : Key} {over : Bool} {who : Nat} : s.ws[i]? = some ⟨p, none⟩ → s.mayBlock p = true →
      0 ≤ k.2 → k.2 < g.numFrames k.1 → Move g s (.block i k over who)
      ((({ s with
            pool := s.pool.request g k true
            active := s.active - 1
            reserved := s.pool.next :: s.reserved } : State F L).put i ⟨p, some s.pool.next⟩).wakeThread over who)
  | unblock {i c : Nat} {p : At} : s.ws[i]? = some ⟨p, some c⟩ → Answered s.pool.trace c →
      Move g s (.unblock i) (s.put i ⟨p, none⟩)
  | idle {i : Nat} {hit : Key → Option F} {full : Key → Bool} {over : Nat → Bool} {who : Nat → Nat} {over' : Bool} :
      s.ws[i]? = some ⟨.scan, none⟩ → s.pool.pick g hit full s.pool.tasks [] = .none →
      Move g s (.scan i hit full over who over') (s.park i)
  | call {i c : Nat} {serial : Bool} {hit : Key → Option F} {full : Key → Bool} {over : Nat → Bool} {who : Nat → Nat}
      {over' : Bool} : s.ws[i]? = some ⟨.scan, none⟩ → s.pool.pick g hit full s.pool.tasks [] = .call c serial →
      Move g s (.scan i hit full over who over')
        (({ s with pool := s.pool.call g c serial } : State F L).put i ⟨.call c, none⟩)
  | hitExt {i c : Nat} {f : F} {hit : Key → Option F} {full : Key → Bool} {over : Nat → Bool} {who : Nat → Nat}
      {over' : Bool} : s.ws[i]? = some ⟨.scan, none⟩ → s.pool.pick g hit full s.pool.tasks [] = .hit c f →
      (s.pool.ctx c).external = true →
      Move g s (.scan i hit full over who over')
        (({ s with pool := s.pool.hit c f } : State F L).put i ⟨.out c, none⟩)
  | hitInt {i c : Nat} {f : F} {hit : Key → Option F} {full : Key → Bool} {over : Nat → Bool} {who : Nat → Nat}
      {over' : Bool} : s.ws[i]? = some ⟨.scan, none⟩ → s.pool.pick g hit full s.pool.tasks [] = .hit c f →
      (s.pool.ctx c).external = false →
      Move g s (.scan i hit full over who over')
        ((({ s with pool := s.pool.hit c f } : State F L).wakes over who
          ((s.pool.hit c f).tasks.length + 1 - s.pool.tasks.length)).after i over')
  | ret {i c : Nat} {o : Outcome F L} {p : Pool.State F L} : s.ws[i]? = some ⟨.call c, none⟩ →
      s.pool.step g (.ret c o) = some p → Move g s (.ret i o) (({ s with pool := p } : State F L).put i ⟨.back c, none⟩)
  | out {i c : Nat} {note : Option Nat} {fl : Bool} {over : Nat → Bool} {who : Nat → Nat} {over' : Bool}
      {p : Pool.State F L} : s.ws[i]? = some ⟨.back c, none⟩ →
      (if fl then { s.pool with flush := true } else s.pool).step g (.complete c) = some p → p.dead = none →
      s.pool.returning.length < p.returning.length →
      Move g s (.complete i note fl over who over')
        ((({ s with pool := p, ws := s.noted note } : State F L).wakes over who
          (p.tasks.length - s.pool.tasks.length)).put i ⟨.out c, none⟩)
  | next {i c : Nat} {note : Option Nat} {fl : Bool} {over : Nat → Bool} {who : Nat → Nat} {over' : Bool}
      {p : Pool.State F L} : s.ws[i]? = some ⟨.back c, none⟩ →
      (if fl then { s.pool with flush := true } else s.pool).step g (.complete c) = some p → p.dead = none →
      ¬ s.pool.returning.length < p.returning.length →
      Move g s (.complete i note fl over who over')
        (((({ s with pool := p, ws := s.noted note } : State F L).wakes over who
          (p.tasks.length - s.pool.tasks.length)).put i ⟨.scan, none⟩).after i over')
  | fatal {i c : Nat} {note : Option Nat} {fl : Bool} {over : Nat → Bool} {who : Nat → Nat} {over' : Bool}
      {p : Pool.State F L} : s.ws[i]? = some ⟨.back c, none⟩ →
      (if fl then { s.pool with flush := true } else s.pool).step g (.complete c) = some p → p.dead ≠ none →
      Move g s (.complete i note fl over who over') { s with pool := p }
  | enterLock {i c : Nat} : s.ws[i]? = some ⟨.out c, none⟩ → c ∈ s.async → s.cbLock = false →
      Move g s (.enter i) (({ s with cbLock := true } : State F L).put i ⟨.user c, none⟩)
  | enter {i c : Nat} : s.ws[i]? = some ⟨.out c, none⟩ → c ∉ s.async →
      Move g s (.enter i) (s.put i ⟨.user c, none⟩)
  | leave {i c : Nat} {q : Nat × Except String F} : s.ws[i]? = some ⟨.user c, none⟩ →
      s.pool.returning.find? (fun p => p.1 == c) = some q → s.pool.step g (.callback c) = some (s.pool.callback c q.2) →
      Move g s (.leave i) (({ s with
        pool := s.pool.callback c q.2
        cbLock := if c ∈ s.async then false else s.cbLock } : State F L).put i ⟨.told c, none⟩)
  | resume {i c : Nat} {over : Bool} : s.ws[i]? = some ⟨.told c, none⟩ →
      Move g s (.resume i over)
        (((if c ∈ s.reserved then { s with active := s.active + 1, reserved := s.reserved.erase c } else s).put i
          ⟨.scan, none⟩).after i over)
  | doze {i : Nat} : s.ws[i]? = some ⟨.woken, none⟩ → s.active ≥ s.max → s.stop = false →
      Move g s (.wake i) (s.put i ⟨.sleep, none⟩)
  | wake {i : Nat} : s.ws[i]? = some ⟨.woken, none⟩ →
      Move g s (.wake i) (({ s with idle := s.idle - 1, active := s.active + 1 } : State F L).put i ⟨.scan, none⟩)
  | spurious {i : Nat} : s.ws[i]? = some ⟨.sleep, none⟩ → Move g s (.spurious i) (s.put i ⟨.woken, none⟩)
  | threads {n : Nat} : 0 < n → Move g s (.threads n) { s with max := n }
  | stop : Move g s .stop { s with stop := true, ws := notifyAll s.ws }

theorem move_of_step {g : Graph F L} {s s' : State F L} {a : Action F L} (h : s.step g a = some s') :
    s.pool.dead = none ∧ Move g s a s' := by
  unfold State.step at h
  split at h
  · cases h
  · next hd =>
    have hd : s.pool.dead = none := by simpa using hd
    refine ⟨hd, ?_⟩
    cases a with
    | request k async over who => injection h with h; subst h; exact .request k async over who
    | block i k over who =>
      simp only at h
      split at h
      · next p hw =>
        split at h
        · next hx =>
          simp only [Bool.and_eq_true, decide_eq_true_eq] at hx
          injection h with h; subst h
          exact .block hw hx.1.1 hx.1.2 hx.2
        · cases h
      · cases h
    | unblock i =>
      simp only at h
      split at h
      · next p c hw =>
        split at h
        · next hx => injection h with h; subst h; exact .unblock hw (answered_iff.1 hx)
        · cases h
      · cases h
    | scan i hit full over who over' =>
      simp only at h
      split at h
      · next hw =>
        split at h
        · next hp => injection h with h; subst h; exact .idle hw hp
        · next c serial hp => injection h with h; subst h; exact .call hw hp
        · next c f hp =>
          split at h
          · next hx => injection h with h; subst h; exact .hitExt hw hp hx
          · next hx => injection h with h; subst h; exact .hitInt hw hp (by simpa using hx)
      · cases h
    | ret i o =>
      simp only at h
      split at h
      · next c hw =>
        split at h
        · next p hp => injection h with h; subst h; exact .ret hw hp
        · cases h
      · cases h
    | complete i note fl over who over' =>
      simp only at h
      split at h
      · next c hw =>
        split at h
        · cases h
        · next p hp =>
          split at h
          · next hd' => injection h with h; subst h; exact .fatal hw hp (by intro e; rw [e] at hd'; cases hd')
          · next hd' =>
            have hd' : p.dead = none := by simpa using hd'
            split at h
            · next hx => injection h with h; subst h; exact .out hw hp hd' hx
            · next hx => injection h with h; subst h; exact .next hw hp hd' hx
      · cases h
    | enter i =>
      simp only at h
      split at h
      · next c hw =>
        split at h
        · next hc =>
          split at h
          · cases h
          · next hx => injection h with h; subst h; exact .enterLock hw hc (by simpa using hx)
        · next hc => injection h with h; subst h; exact .enter hw hc
      · cases h
    | leave i =>
      simp only at h
      split at h
      · next c hw =>
        split at h
        · next p hp =>
          injection h with h; subst h
          have hp' := hp
          unfold Pool.State.step at hp
          rw [hd] at hp
          simp only [Option.isSome_none, Bool.false_eq_true, if_false] at hp
          split at hp
          · next q hq => injection hp with hp; subst hp; exact .leave hw hq hp'
          · cases hp
        · cases h
      · cases h
    | resume i over =>
      simp only at h
      split at h
      · next c hw => injection h with h; subst h; exact .resume hw
      · cases h
    | wake i =>
      simp only at h
      split at h
      · next hw =>
        split at h
        · next hx => injection h with h; subst h; exact .doze hw hx.1 hx.2
        · injection h with h; subst h; exact .wake hw
      · cases h
    | spurious i =>
      simp only at h
      split at h
      · next hw => injection h with h; subst h; exact .spurious hw
      · cases h
    | threads n =>
      simp only at h
      split at h
      · next hx => injection h with h; subst h; exact .threads hx
      · cases h
    | stop => injection h with h; subst h; exact .stop

theorem after_pool {s : State F L} {i : Nat} {over : Bool} (h : WInv s) (hw : s.ws[i]? = some ⟨.scan, none⟩) :
    (s.after i over).pool = s.pool := by
  unfold State.after
  split
  · next hx =>
    have hgt : s.active > 1 := by
      have := h.mx
      simp only [Bool.or_eq_true, decide_eq_true_eq, Bool.and_eq_true] at hx
      omega
    unfold State.park
    simp only
    split
    · rfl
    · next hst =>
      split
      · next hy =>
        have := (swap_empty h hw (by simpa using hst) hy.1).2.1
        omega
      · rfl
  · rfl

theorem park_run {g : Graph F L} {s : State F L} {i : Nat} {as : List (Pool.Action F L)} {hit : Key → Option F}
    {full : Key → Bool} (h : WInv s) (hr : Pool.Run g as s.pool) (hd : s.pool.dead = none)
    (hw : s.ws[i]? = some ⟨.scan, none⟩) (hp : s.pool.pick g hit full s.pool.tasks [] = .none)
    (hl : ∀ k f, hit k = some f → (k, f) ∈ s.pool.produced) : ∃ bs, Pool.Run g bs (s.park i).pool := by
  unfold State.park
  simp only
  split
  · exact ⟨as, hr⟩
  · next hst =>
    split
    · next hy =>
      obtain ⟨_, _, h1, h2, h3⟩ := swap_empty h hw (by simpa using hst) hy.1
      refine ⟨as ++ [.start hit full], .snoc (a := .start hit full) hr hl ?_⟩
      unfold Pool.State.step
      rw [hd]
      simp [hp, hy.2, h1, h2, h3]
    · exact ⟨as, hr⟩

/-- The step of the scheduler that ends a call. -/
theorem complete_step {g : Graph F L} {s s' : Pool.State F L} {c : Nat} (h : s.step g (.complete c) = some s') :
    s.dead = none ∧ ∃ q, s.finished.find? (fun p => p.1 == c) = some q ∧ s' = s.complete g c q.2 := by
  unfold Pool.State.step at h
  split at h
  · cases h
  · next hd =>
    simp only at h
    split at h
    · next q hq => injection h with h; exact ⟨by simpa using hd, q, hq, h.symm⟩
    · cases h

theorem ret_step {g : Graph F L} {s s' : Pool.State F L} {c : Nat} {o : Outcome F L} (h : s.step g (.ret c o) = some s') :
    s.dead = none ∧ ∃ j, s.running.find? (fun p => p.c == c) = some j ∧ s' = s.ret g c j.serial o := by
  unfold Pool.State.step at h
  split at h
  · cases h
  · next hd =>
    simp only at h
    split at h
    · next q hq => injection h with h; exact ⟨by simpa using hd, q, hq, h.symm⟩
    · cases h

theorem map_find_perm {α : Type} {f : α → Nat} {l : List α} {a : α} {c : Nat} (h : l.find? (fun x => f x == c) = some a) :
    (l.map f).Perm (c :: (l.eraseP (fun x => f x == c)).map f) := by
  have h1 := (eraseP_perm h).map f
  have h2 : f a = c := by simpa using List.find?_some h
  rw [List.map_cons, h2] at h1
  exact h1

/-- After the end of a call the worker has not moved yet. -/
theorem finish_held {g : Graph F L} {s : State F L} {i c : Nat} {fl : Bool} {p : Pool.State F L} (h : WInv s)
    (hw : s.ws[i]? = some ⟨.back c, none⟩)
    (hp : (if fl then { s.pool with flush := true } else s.pool).step g (.complete c) = some p) (hd : p.dead = none) :
    (s.pool.returning.length < p.returning.length → WInv (({ s with pool := p } : State F L).put i ⟨.out c, none⟩)) ∧
    (¬ s.pool.returning.length < p.returning.length → WInv (({ s with pool := p } : State F L).put i ⟨.scan, none⟩)) := by
  obtain ⟨_, q, hq, rfl⟩ := complete_step hp
  obtain ⟨v1, v2, v3, v4, v5⟩ := complete_view g _ c q.2 hd
  generalize hz : (if fl then { s.pool with flush := true } else s.pool).complete g c q.2 = z at *
  have hq' : s.pool.finished.find? (fun p => p.1 == c) = some q := by
    cases fl <;> exact hq
  have e1 : Quiet s.pool z := by cases fl <;> exact ⟨v1.next, v1.ext, v1.key, v1.alt, v1.ans⟩
  have e2 : z.running = s.pool.running := by cases fl <;> exact v2
  have e3 : z.finished = s.pool.finished.eraseP (fun p => p.1 == c) := by cases fl <;> exact v3
  have e4 : z.returning.map Prod.fst = c :: s.pool.returning.map Prod.fst ∨ z.returning = s.pool.returning := by
    cases fl <;> exact v4
  have hfin := map_find_perm (f := Prod.fst) hq'
  constructor
  · intro hlt
    have e4 : z.returning.map Prod.fst = c :: s.pool.returning.map Prod.fst := by
      rcases e4 with e | e
      · exact e
      · rw [e] at hlt; exact absurd hlt (Nat.lt_irrefl _)
    refine put_held (s' := { s with pool := z }) hw rfl h (fun r h => ?_)
    refine h.turn (p := z) (lk := s.cbLock) e1 rfl rfl (fun _ => ⟨by simp, by simp⟩) (fun _ => by simp) rfl ?_ ?_ ?_
    · rw [e2]; exact h.run
    · rw [e3]; exact (h.fin.trans hfin).cons_inv
    · rw [e4]; exact h.ret.cons c
  · intro hlt
    have e4 : z.returning = s.pool.returning := by
      rcases e4 with e | e
      · have := congrArg List.length e
        simp only [List.length_map, List.length_cons] at this
        omega
      · exact e
    refine put_held (s' := { s with pool := z }) hw rfl h (fun r h => ?_)
    refine h.turn (p := z) (lk := s.cbLock) e1 rfl rfl (fun _ => ⟨by simp, by simp⟩) (fun _ => by simp) rfl ?_ ?_ ?_
    · rw [e2]; exact h.run
    · rw [e3]; exact (h.fin.trans hfin).cons_inv
    · rw [e4]; exact h.ret

theorem Woke.set {a b : List Worker} (h : Woke a b) {i : Nat} {w w' : Worker} (hw : a[i]? = some w)
    (hs : w.place ≠ .sleep) : Woke (a.set i w') (b.set i w') := by
  induction h generalizing i with
  | nil => simp at hw
  | @same _ l l' h ih =>
    cases i with
    | zero => exact .same h
    | succ i =>
      rw [List.getElem?_cons_succ] at hw
      rw [List.set_cons_succ, List.set_cons_succ]
      exact .same (ih hw)
  | @up x l l' h ih =>
    cases i with
    | zero =>
      simp only [List.getElem?_cons_zero, Option.some.injEq] at hw
      subst hw
      exact absurd rfl hs
    | succ i =>
      rw [List.getElem?_cons_succ] at hw
      rw [List.set_cons_succ, List.set_cons_succ]
      exact .up (ih hw)

/-- `wakeThread` some number of times. -/
inductive Wakes : State F L → State F L → Prop where
  | refl (s : State F L) : Wakes s s
  | step {a b c : State F L} : Wakes a b → WakeCase b c → Wakes a c

theorem Wakes.inv {s s' : State F L} (h : Wakes s s') (hi : WInv s) : WInv s' := by
  induction h with
  | refl => exact hi
  | step _ h ih => exact h.inv ih

theorem Wakes.kept {s s' : State F L} (h : Wakes s s') : Kept s s' := by
  induction h with
  | refl => exact Kept.refl _
  | step _ h ih => exact ih.trans h.kept

theorem wakes_of (s : State F L) (over : Nat → Bool) (who : Nat → Nat) : ∀ n, Wakes s (s.wakes over who n)
  | 0 => .refl _
  | n + 1 => .step (wakes_of s over who n) (wakeThread_case _ _ _)

theorem Wakes.noted (s : State F L) (note : Option Nat) : Wakes s { s with ws := s.noted note } :=
  .step (.refl _) (.woke (noted_woke s note))

theorem Wakes.trans {a b c : State F L} (h : Wakes a b) (h' : Wakes b c) : Wakes a c := by
  induction h' with
  | refl => exact h
  | step _ w ih => exact .step ih w

theorem WakeCase.put {s s' : State F L} (h : WakeCase s s') {i : Nat} {w w' : Worker} (hw : s.ws[i]? = some w)
    (hs : w.place ≠ .sleep) : WakeCase (s.put i w') (s'.put i w') := by
  cases h with
  | same => exact .same
  | spawn =>
    have hlt := (List.getElem?_eq_some_iff.1 hw).1
    have : ({ s with ws := s.ws ++ [⟨.scan, none⟩], active := s.active + 1 } : State F L).put i w' =
        { s.put i w' with ws := (s.put i w').ws ++ [⟨.scan, none⟩], active := (s.put i w').active + 1 } := by
      unfold State.put
      simp only [List.set_append_left _ _ hlt]
    rw [this]
    exact .spawn
  | woke p => exact .woke (p.set hw hs)

theorem Wakes.put {s s' : State F L} (h : Wakes s s') {i : Nat} {w w' : Worker} (hw : s.ws[i]? = some w)
    (hs : w.place ≠ .sleep) : Wakes (s.put i w') (s'.put i w') := by
  induction h with
  | refl => exact .refl _
  | step h1 h2 ih => exact .step ih (h2.put (h1.kept.get i w hw hs) hs)

theorem put_get {s : State F L} {i : Nat} {w w' : Worker} (hw : s.ws[i]? = some w) : (s.put i w').ws[i]? = some w' := by
  have hlt := (List.getElem?_eq_some_iff.1 hw).1
  unfold State.put
  simp [hlt]

theorem inCb_new {l : List Worker} {as : List Nat} {n : Nat} (h : ∀ c ∈ l.filterMap Worker.outOf, c < n) (b : Bool) :
    ∀ w ∈ l, w.inCb as = w.inCb (if b then n :: as else as) := by
  intro w hw
  split
  · unfold Worker.inCb
    split
    · next c hc =>
      have := h c (List.mem_filterMap.2 ⟨w, hw, by rw [Worker.outOf, hc]⟩)
      have hne : c ≠ n := Nat.ne_of_lt this
      simp [hne]
    · rfl
  · rfl

/-- The state of the scheduler after a step is one of its states, and the invariant is kept. -/
theorem move_inv {g : Graph F L} {s s' : State F L} {a : Action F L} {as : List (Pool.Action F L)} (h : WInv s)
    (hr : Pool.Run g as s.pool) (hd : s.pool.dead = none) (hl : a.legal g s) (m : Move g s a s') :
    (∃ bs, Pool.Run g bs s'.pool) ∧ (s'.pool.dead = none → WInv s') := by
  have hi := Pool.run_inv hr hd
  have hlt : ∀ c ∈ s.pool.lists, c < s.pool.next := hi.acc.lt
  have hcall : ∀ {hit : Key → Option F} {full : Key → Bool} {c : Nat} {serial : Bool},
      (∀ k f, hit k = some f → (k, f) ∈ s.pool.produced) → s.pool.pick g hit full s.pool.tasks [] = .call c serial →
      ∃ bs, Pool.Run g bs (s.pool.call g c serial) := fun {hit full c serial} h1 h2 =>
    ⟨_, .snoc (a := .start hit full) hr h1 (by unfold Pool.State.step; rw [hd]; simp [h2])⟩
  have hhit : ∀ {hit : Key → Option F} {full : Key → Bool} {c : Nat} {f : F},
      (∀ k f, hit k = some f → (k, f) ∈ s.pool.produced) → s.pool.pick g hit full s.pool.tasks [] = .hit c f →
      ∃ bs, Pool.Run g bs (s.pool.hit c f) := fun {hit full c f} h1 h2 =>
    ⟨_, .snoc (a := .start hit full) hr h1 (by unfold Pool.State.step; rw [hd]; simp [h2])⟩
  have hfl : s.pool.step g .setFlush = some { s.pool with flush := true } := by
    unfold Pool.State.step
    simp [hd]
  have hcomp : ∀ {fl : Bool} {p : Pool.State F L} {c : Nat},
      (if fl then { s.pool with flush := true } else s.pool).step g (.complete c) = some p →
      ∃ bs, Pool.Run g bs p := by
    intro fl p c hp
    cases fl with
    | false => exact ⟨_, .snoc (a := .complete c) hr trivial hp⟩
    | true => exact ⟨_, .snoc (a := .complete c) (.snoc (a := .setFlush) hr trivial hfl) trivial hp⟩
  cases m with
  | request k async over who =>
    have h1 := request_held (g := g) h k _ (inCb_new (as := s.async) (n := s.pool.next) (fun c hc =>
      hlt c (hi.acc.mem_lists.2 (.inr (.inr (.inr (.inr (h.ret.mem_iff.1 hc))))))) async)
    have hrun : ∃ bs, Pool.Run g bs (s.pool.request g k false) :=
      ⟨_, .snoc (a := .request k false) hr trivial (by unfold Pool.State.step; rw [hd]; rfl)⟩
    split
    · exact ⟨hrun, fun _ => h1⟩
    · exact ⟨by rw [(wakeThread_case _ _ _).kept.pool]; exact hrun, fun _ => (wakeThread_case _ _ _).inv h1⟩
  | @block i p k over who hw hm _ _ =>
    refine ⟨?_, fun _ => (wakeThread_case _ _ _).inv (block_held h (fun c hc => ?_) (fun c hc => ?_) hw hm)⟩
    · rw [(wakeThread_case _ _ _).kept.pool]
      exact ⟨_, .snoc (a := .request k true) hr trivial (by unfold Pool.State.step; rw [hd]; rfl)⟩
    · refine Nat.lt_of_not_le (fun hn => ?_)
      have := (hi.acc.ans_out c hc).1
      rw [hi.acc.blank c hn] at this; cases this
    · exact hlt c (hi.acc.mem_lists.2 (.inr (.inl hc)))
  | unblock hw ha => exact ⟨⟨as, hr⟩, fun _ => unblock_held h hw ha⟩
  | idle hw hp => exact ⟨park_run h hr hd hw hp hl, fun _ => park_held h hw⟩
  | @call i c serial _ _ _ _ _ hw hp =>
    refine ⟨hcall hl hp, fun _ => ?_⟩
    obtain ⟨v1, v2, v3, v4, v5⟩ := call_view g s.pool c serial
    refine put_held (s' := { s with pool := s.pool.call g c serial }) hw rfl h (fun r h => ?_)
    refine h.turn (lk := s.cbLock) v1 rfl rfl (fun _ => ⟨by simp, by simp⟩) (fun _ => by simp) rfl ?_ ?_ ?_
    · rw [v2]; exact h.run.cons c
    · rw [v3]; exact h.fin
    · rw [v4]; exact h.ret
  | @hitExt i c f _ _ _ _ _ hw hp hx =>
    refine ⟨hhit hl hp, fun _ => ?_⟩
    obtain ⟨v1, v2, v3, v4, v5⟩ := hit_view s.pool c f
    rw [hx, if_pos rfl] at v4
    refine put_held (s' := { s with pool := s.pool.hit c f }) hw rfl h (fun r h => ?_)
    refine h.turn (lk := s.cbLock) v1 rfl rfl (fun _ => ⟨by simp, by simp⟩) (fun _ => by simp) rfl ?_ ?_ ?_
    · rw [v2]; exact h.run
    · rw [v3]; exact h.fin
    · rw [v4]; exact h.ret.cons c
  | @hitInt i c f _ _ over who over' hw hp hx =>
    obtain ⟨v1, v2, v3, v4, v5⟩ := hit_view s.pool c f
    rw [hx] at v4
    simp only [Bool.false_eq_true, if_false] at v4
    have h1 : WInv ({ s with pool := s.pool.hit c f } : State F L) := by
      have := h.quiet (as := s.async) v1 (by rw [v2]) (by rw [v3]) v4 v5 (fun _ _ => rfl)
      exact this
    have h2 := wakes_of ({ s with pool := s.pool.hit c f } : State F L) over who
      ((s.pool.hit c f).tasks.length + 1 - s.pool.tasks.length)
    have h3 := h2.kept.get i _ hw (by simp)
    refine ⟨?_, fun _ => after_held (h2.inv h1) h3⟩
    rw [after_pool (h2.inv h1) h3, h2.kept.pool]
    exact hhit hl hp
  | @ret i c o p hw hp =>
    refine ⟨⟨_, .snoc (a := .ret c o) hr (hl c hw) hp⟩, fun _ => ?_⟩
    obtain ⟨_, j, hj, rfl⟩ := ret_step hp
    obtain ⟨v1, v2, v3, v4, v5⟩ := ret_view g s.pool c j.serial o
    have hrun := map_find_perm (f := Job.c) hj
    refine put_held (s' := { s with pool := s.pool.ret g c j.serial o }) hw rfl h (fun r h => ?_)
    refine h.turn (lk := s.cbLock) v1 rfl rfl (fun _ => ⟨by simp, by simp⟩) (fun _ => by simp) rfl ?_ ?_ ?_
    · rw [v2]; exact (h.run.trans hrun).cons_inv
    · rw [v3]; exact h.fin.cons c
    · rw [v4]; exact h.ret
  | @out i c note fl over who over' p hw hp hd' hlt =>
    have hrun := hcomp hp
    have hk := (Wakes.noted ({ s with pool := p } : State F L) note).trans
      (wakes_of ({ s with pool := p, ws := s.noted note } : State F L) over who (p.tasks.length - s.pool.tasks.length))
    have hpool : ((({ s with pool := p, ws := s.noted note } : State F L).wakes over who
          (p.tasks.length - s.pool.tasks.length)).put i ⟨.out c, none⟩).pool = p := hk.kept.pool
    refine ⟨by rw [hpool]; exact hrun, fun _ => ?_⟩
    exact (hk.put (w' := ⟨.out c, none⟩) hw (by simp)).inv ((finish_held h hw hp hd').1 hlt)
  | @next i c note fl over who over' p hw hp hd' hlt =>
    have hrun := hcomp hp
    have hk := (Wakes.noted ({ s with pool := p } : State F L) note).trans
      (wakes_of ({ s with pool := p, ws := s.noted note } : State F L) over who (p.tasks.length - s.pool.tasks.length))
    have hget := hk.kept.get i ⟨.back c, none⟩ hw (by simp)
    have h1 := (hk.put (w' := ⟨.scan, none⟩) hw (by simp)).inv ((finish_held h hw hp hd').2 hlt)
    have h2 := put_get (w' := ⟨.scan, none⟩) hget
    refine ⟨?_, fun _ => after_held h1 h2⟩
    rw [after_pool h1 h2]
    show ∃ bs, Pool.Run g bs (State.wakes _ _ _ _).pool
    rw [hk.kept.pool]
    exact hrun
  | @fatal i c note fl over who over' p hw hp hd' =>
    exact ⟨hcomp hp, fun hx => absurd hx hd'⟩
  | @enterLock i c hw hc hk =>
    refine ⟨⟨as, hr⟩, fun _ => put_held (s' := { s with cbLock := true }) hw rfl h (fun r h => ?_)⟩
    refine h.turn (p := s.pool) (lk := true) (Quiet.refl _) rfl rfl (fun _ => ⟨by simp, by simp⟩) (fun _ => by simp) ?_
      h.run h.fin h.ret
    simp [Worker.inCb, hc, hk]
  | @enter i c hw hc =>
    refine ⟨⟨as, hr⟩, fun _ => put_held (s' := s) hw rfl h (fun r h => ?_)⟩
    refine h.turn (p := s.pool) (lk := s.cbLock) (Quiet.refl _) rfl rfl (fun _ => ⟨by simp, by simp⟩) (fun _ => by simp) ?_
      h.run h.fin h.ret
    simp [Worker.inCb, hc]
  | @leave i c q hw hq hp => exact ⟨⟨_, .snoc (a := .callback c) hr trivial hp⟩, fun _ => leave_held h hw hq⟩
  | @resume i c over hw =>
    have h1 := resume_held h hw
    have h2 : ((if c ∈ s.reserved then { s with active := s.active + 1, reserved := s.reserved.erase c } else s).put i
        ⟨.scan, none⟩).ws[i]? = some ⟨.scan, none⟩ := put_get (w := ⟨.told c, none⟩) (by split <;> exact hw)
    refine ⟨?_, fun _ => after_held h1 h2⟩
    rw [after_pool h1 h2]
    refine ⟨as, ?_⟩
    show Pool.Run g as (if c ∈ s.reserved then _ else s : State F L).pool
    split <;> exact hr
  | doze hw _ hst => exact ⟨⟨as, hr⟩, fun _ => nap_held h hw (.inr rfl) (.inr ⟨rfl, hst⟩)⟩
  | wake hw => exact ⟨⟨as, hr⟩, fun _ => wake_held h hw⟩
  | spurious hw => exact ⟨⟨as, hr⟩, fun _ => nap_held h hw (.inl rfl) (.inl rfl)⟩
  | threads hn => exact ⟨⟨as, hr⟩, fun _ => threads_held h hn⟩
  | stop => exact ⟨⟨as, hr⟩, fun _ => stop_held h⟩

end VS.Work
