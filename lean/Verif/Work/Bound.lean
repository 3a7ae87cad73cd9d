import Verif.Work.Live

/-!
# How many threads there are, and what stuck threads mean
-/

namespace VS.Work

open VS.Pool (Key Graph Outcome Job Answered Event)

variable {F L : Type}

theorem told_iff (t : List (Event F)) (c : Nat) : Told t c ↔ Answered t c := Iff.rfl

/-! ## The number of threads -/

/-- `activeThreads`, `idleThreads` and the threads given up while waiting. -/
def State.total (s : State F L) : Int := s.active + s.idle + s.reserved.length

theorem alive_eq (l : List Worker) :
    l.countP (fun w => w.place != .gone) = l.countP Worker.awake + l.countP Worker.rests := by
  induction l with
  | nil => rfl
  | cons w t ih =>
    rw [List.countP_cons, List.countP_cons, List.countP_cons, ih]
    obtain ⟨a, b⟩ := w
    cases a <;> simp [Worker.awake, Worker.rests] <;> omega

theorem Held.alive {s : State F L} (h : WInv s) : (s.alive : Int) = s.total := by
  unfold State.alive State.total
  rw [alive_eq]
  have := h.act
  have := h.idl
  push_cast
  omega

theorem wakeThread_total (s : State F L) (over : Bool) (who : Nat) :
    (s.wakeThread over who).total ≤ max s.total (s.max + s.reserved.length) := by
  unfold State.wakeThread
  split
  · split
    · exact Int.le_max_left ..
    · split
      · next h1 _ h2 =>
        refine Int.le_trans ?_ (Int.le_max_right ..)
        show s.active + 1 + s.idle + _ ≤ _
        rw [h2]
        show s.active + 1 + 0 + (s.reserved.length : Int) ≤ _
        omega
      · exact Int.le_max_left ..
  · exact Int.le_max_left ..

theorem wakes_total (s : State F L) (over : Nat → Bool) (who : Nat → Nat) : ∀ n,
    (s.wakes over who n).total ≤ max s.total (s.max + s.reserved.length)
  | 0 => Int.le_max_left ..
  | n + 1 => by
    have h1 := wakeThread_total (s.wakes over who n) (over n) (who n)
    have h2 := wakes_total s over who n
    have h3 := (wakes_of s over who n).kept
    rw [h3.max, h3.reserved] at h1
    exact Int.le_trans h1 (Int.max_le.2 ⟨h2, Int.le_max_right ..⟩)

theorem park_total (s : State F L) (i : Nat) : (s.park i).total ≤ s.total := by
  unfold State.park State.total
  simp only
  split
  · show s.active - 1 + s.idle + (s.reserved.length : Int) ≤ _
    omega
  · split
    · show s.active - 1 + 1 + (s.idle + 1 - 1) + (s.reserved.length : Int) ≤ _
      omega
    · show s.active - 1 + (s.idle + 1) + (s.reserved.length : Int) ≤ _
      omega

theorem park_same (s : State F L) (i : Nat) : (s.park i).max = s.max ∧ (s.park i).reserved = s.reserved := by
  unfold State.park
  simp only
  split
  · exact ⟨rfl, rfl⟩
  · split <;> exact ⟨rfl, rfl⟩

theorem after_total (s : State F L) (i : Nat) (over : Bool) : (s.after i over).total ≤ s.total ∧
    (s.after i over).max = s.max ∧ (s.after i over).reserved = s.reserved := by
  unfold State.after
  split
  · exact ⟨park_total s i, park_same s i⟩
  · exact ⟨Int.le_refl _, rfl, rfl⟩

/-- The bound on the number of threads. -/
structure Few (m b : Nat) (s : State F L) : Prop where
  tot : s.total ≤ m + b
  max : s.max ≤ m
  res : s.reserved.length ≤ b

theorem Few.same {m b : Nat} {s s' : State F L} (h : Few m b s) (h1 : s'.total = s.total) (h2 : s'.max = s.max)
    (h3 : s'.reserved = s.reserved) : Few m b s' := by
  refine ⟨?_, ?_, ?_⟩
  · rw [h1]; exact h.tot
  · rw [h2]; exact h.max
  · rw [h3]; exact h.res

theorem Few.wakes {m b : Nat} {s : State F L} (h : Few m b s) (over : Nat → Bool) (who : Nat → Nat) (n : Nat) :
    Few m b (s.wakes over who n) := by
  have h3 := (wakes_of s over who n).kept
  refine ⟨Int.le_trans (wakes_total s over who n) ?_, ?_, ?_⟩
  · have := h.tot; have := h.max; have := h.res
    omega
  · rw [h3.max]; exact h.max
  · rw [h3.reserved]; exact h.res

theorem Few.wakeThread {m b : Nat} {s : State F L} (h : Few m b s) (over : Bool) (who : Nat) :
    Few m b (s.wakeThread over who) :=
  h.wakes (fun _ => over) (fun _ => who) 1

theorem Few.after {m b : Nat} {s : State F L} (h : Few m b s) (i : Nat) (over : Bool) : Few m b (s.after i over) := by
  obtain ⟨h1, h2, h3⟩ := after_total s i over
  refine ⟨Int.le_trans h1 h.tot, ?_, ?_⟩
  · rw [h2]; exact h.max
  · rw [h3]; exact h.res

theorem Few.park {m b : Nat} {s : State F L} (h : Few m b s) (i : Nat) : Few m b (s.park i) := by
  obtain ⟨h2, h3⟩ := park_same s i
  refine ⟨Int.le_trans (park_total s i) h.tot, ?_, ?_⟩
  · rw [h2]; exact h.max
  · rw [h3]; exact h.res

theorem move_few {g : Graph F L} {s s' : State F L} {a : Action F L} {m b : Nat} (h : Few m b s)
    (hl : Limited m s a) (mv : Move g s a s') : Few m (b + a.isBlock.toNat) s' := by
  cases mv with
  | request k async over who =>
    have h1 : Few m b ({ s with pool := s.pool.request g k false, async := if async then s.pool.next :: s.async else s.async } : State F L) :=
      h.same rfl rfl rfl
    split
    · exact h1
    · exact h1.wakeThread _ _
  | block hw hm _ _ =>
    refine Few.wakeThread ?_ _ _
    have h0 := h.tot
    have := h.res
    refine ⟨?_, h.max, ?_⟩
    · show s.active - 1 + s.idle + ((s.pool.next :: s.reserved).length : Int) ≤ _
      simp only [Action.isBlock, Bool.toNat_true, List.length_cons]
      unfold State.total at h0
      push_cast
      omega
    · simp only [Action.isBlock, Bool.toNat_true]
      show s.reserved.length + 1 ≤ b + 1
      omega
  | unblock hw ha => exact h.same rfl rfl rfl
  | idle hw hp => exact h.park _
  | call hw hp => exact h.same rfl rfl rfl
  | hitExt hw hp hx => exact h.same rfl rfl rfl
  | @hitInt i c f _ _ over who over' hw hp hx =>
    exact (Few.wakes (s := { s with pool := s.pool.hit c f }) (h.same rfl rfl rfl) _ _ _).after _ _
  | ret hw hp => exact h.same rfl rfl rfl
  | @out i c note fl over who over' p hw hp hdp hlt =>
    exact (Few.wakes (s := { s with pool := p, ws := s.noted note }) (h.same rfl rfl rfl) _ _ _).same rfl rfl rfl
  | @next i c note fl over who over' p hw hp hdp hlt =>
    exact ((Few.wakes (s := { s with pool := p, ws := s.noted note }) (h.same rfl rfl rfl) over who
      (p.tasks.length - s.pool.tasks.length)).same (s' := State.put _ i ⟨.scan, none⟩) rfl rfl rfl).after _ _
  | fatal _ _ _ => exact h.same rfl rfl rfl
  | enterLock _ _ _ => exact h.same rfl rfl rfl
  | enter _ _ => exact h.same rfl rfl rfl
  | leave _ _ _ => exact h.same rfl rfl rfl
  | @resume i c over hw =>
    refine Few.after (s := State.put _ _ _) ?_ _ _
    split
    · next hc =>
      have hlen := List.length_erase_of_mem hc
      have hpos := List.length_pos_of_mem hc
      refine ⟨?_, h.max, ?_⟩
      · have := h.tot
        unfold State.total at this
        show s.active + 1 + s.idle + ((s.reserved.erase c).length : Int) ≤ _
        rw [hlen]
        show _ ≤ (m : Int) + ((b + 0 : Nat) : Int)
        omega
      · have := h.res
        show (s.reserved.erase c).length ≤ b
        omega
    · exact h.same rfl rfl rfl
  | doze _ _ _ => exact h.same rfl rfl rfl
  | wake _ =>
    refine h.same ?_ rfl rfl
    show s.active + 1 + (s.idle - 1) + (s.reserved.length : Int) = s.active + s.idle + s.reserved.length
    omega
  | spurious _ => exact h.same rfl rfl rfl
  | @threads k hk => exact ⟨h.tot, hl k rfl, h.res⟩
  | stop => exact h.same rfl rfl rfl

theorem sched_few {g : Graph F L} {n m : Nat} {as : List (Action F L)} {s : State F L} (hn : n ≤ m)
    (h : Sched g n (Limited m) as s) : Few m (as.countP Action.isBlock) s := by
  induction h with
  | nil _ => exact ⟨by show (0 : Int) + 0 + 0 ≤ _; omega, hn, Nat.zero_le _⟩
  | snoc _ _ h2 h3 ih =>
    rw [List.countP_append, List.countP_singleton]
    have := move_few ih h2 (move_of_step h3).2
    have he : ∀ b : Bool, b.toNat = if b = true then 1 else 0 := by decide
    rw [he] at this
    exact this

/-! ## Steps that can be taken -/

theorem find_of_perm {β : Type} {l : List (Nat × β)} {c : Nat} (h : c ∈ l.map Prod.fst) :
    ∃ q, l.find? (fun p => p.1 == c) = some q := by
  obtain ⟨q, hq, rfl⟩ := List.mem_map.1 h
  cases hf : l.find? (fun p => p.1 == q.1) with
  | some x => exact ⟨x, rfl⟩
  | none => exact absurd (List.find?_eq_none.1 hf q hq) (by simp)

theorem leave_busy {g : Graph F L} {s : State F L} (h : WInv s) (hd : s.pool.dead = none) {i c : Nat}
    (hw : s.ws[i]? = some ⟨.user c, none⟩) : Busy g s := by
  have hm : c ∈ s.pool.returning.map Prod.fst :=
    h.ret.mem_iff.1 (List.mem_filterMap.2 ⟨_, List.mem_of_getElem? hw, rfl⟩)
  obtain ⟨q, hq⟩ := find_of_perm hm
  refine .step (i := i) (a := .leave i) rfl trivial
    (s' := ({ s with pool := s.pool.callback c q.2
                     cbLock := if c ∈ s.async then false else s.cbLock } : State F L).put i ⟨.told c, none⟩) ?_
  unfold State.step
  simp [hd, hw, Pool.State.step, hq]

/-- Where nobody but filters waits, a worker that is not stuck can go on. -/
theorem busy_of {g : Graph F L} {s : State F L} (h : WInv s) (hd : s.pool.dead = none)
    (hb : ∀ w ∈ s.ws, w.wait ≠ none → ∃ d, w.place = .call d) {w : Worker} (hw : w ∈ s.ws)
    (hn : ¬ w.stuck s.pool) : Busy g s := by
  obtain ⟨i, hi⟩ := List.getElem?_of_mem hw
  obtain ⟨a, b⟩ := w
  cases b with
  | some c =>
    have hans : Answered s.pool.trace c :=
      Classical.byContradiction (fun hx => hn (.inr (.inr ⟨c, rfl, hx⟩)))
    refine .step (i := i) (a := .unblock i) rfl trivial (s' := s.put i ⟨a, none⟩) ?_
    unfold State.step
    simp [hd, hi, answered_iff.2 hans]
  | none =>
    cases a with
    | scan =>
      have : ∀ r, s.pool.pick g (fun _ => none) (fun _ => false) s.pool.tasks [] = r →
          ∃ s', s.step g (.scan i (fun _ => none) (fun _ => false) (fun _ => false) (fun _ => 0) false) = some s' := by
        intro r hr
        unfold State.step
        simp only [hd, hi, hr, Option.isSome_none, Bool.false_eq_true, if_false]
        cases r with
        | none => exact ⟨_, rfl⟩
        | call c b => exact ⟨_, rfl⟩
        | hit c f => simp only; split <;> exact ⟨_, rfl⟩
      obtain ⟨s', hs'⟩ := this _ rfl
      exact .step (i := i) (a := .scan i (fun _ => none) _ _ _ _) rfl (fun k f hx => by cases hx) hs'
    | call c => exact .filter hi
    | back c =>
      have hm : c ∈ s.pool.finished.map Prod.fst :=
        h.fin.mem_iff.1 (List.mem_filterMap.2 ⟨_, List.mem_of_getElem? hi, rfl⟩)
      obtain ⟨q, hq⟩ := find_of_perm hm
      have : ∃ s', s.step g (.complete i none false (fun _ => false) (fun _ => 0) false) = some s' := by
        unfold State.step
        simp only [hd, hi, Option.isSome_none, Bool.false_eq_true, if_false, Pool.State.step, hq]
        split
        · exact ⟨_, rfl⟩
        · split <;> exact ⟨_, rfl⟩
      obtain ⟨s', hs'⟩ := this
      exact .step (i := i) (a := .complete i none false _ _ _) rfl trivial hs'
    | out c =>
      by_cases hc : c ∈ s.async
      · cases hl : s.cbLock with
        | false =>
          refine .step (i := i) (a := .enter i) rfl trivial (s' := ({ s with cbLock := true } : State F L).put i ⟨.user c, none⟩) ?_
          unfold State.step
          simp [hd, hi, hc, hl]
        | true =>
          have hcb := h.cb
          rw [hl] at hcb
          obtain ⟨v, hv, hv1⟩ := List.countP_pos_iff.1 (by rw [hcb]; decide : 0 < s.ws.countP (Worker.inCb s.async))
          obtain ⟨j, hj⟩ := List.getElem?_of_mem hv
          obtain ⟨va, vb⟩ := v
          unfold Worker.inCb at hv1
          simp only at hv1
          split at hv1
          · next x =>
            cases vb with
            | none => exact leave_busy h hd hj
            | some e =>
              obtain ⟨d, hx⟩ := hb _ hv (by simp)
              cases hx
          · cases hv1
      · refine .step (i := i) (a := .enter i) rfl trivial (s' := s.put i ⟨.user c, none⟩) ?_
        unfold State.step
        simp [hd, hi, hc]
    | user c => exact leave_busy h hd hi
    | told c =>
      refine .step (i := i) (a := .resume i false) rfl trivial (s' := ((if c ∈ s.reserved then
        { s with active := s.active + 1, reserved := s.reserved.erase c } else s).put i ⟨.scan, none⟩).after i false) ?_
      unfold State.step
      simp [hd, hi]
    | sleep => exact absurd (.inl rfl) hn
    | woken =>
      by_cases hx : s.active ≥ s.max ∧ s.stop = false
      · refine .step (i := i) (a := .wake i) rfl trivial (s' := s.put i ⟨.sleep, none⟩) ?_
        unfold State.step
        simp [hd, hi, hx]
      · refine .step (i := i) (a := .wake i) rfl trivial
          (s' := ({ s with idle := s.idle - 1, active := s.active + 1 } : State F L).put i ⟨.scan, none⟩) ?_
        unfold State.step
        simp only [hd, hi, Option.isSome_none, Bool.false_eq_true, if_false, hx]
    | gone => exact absurd (.inr (.inl rfl)) hn

/-! ## Programs without blocking calls -/

/-- The waiting workers are those that called `getFrame`. -/
theorem below_zero {p : Pool.State F L} {l : List Worker} : Below (fun _ => 0) p l ↔ ∀ w ∈ l, w.wait = none := by
  constructor
  · intro h w hw
    cases hx : w.wait with
    | none => rfl
    | some c =>
      obtain ⟨d, _, h2⟩ := h w hw c hx
      exact absurd h2 (by simp)
  · intro h w hw c hc
    rw [h w hw] at hc; cases hc

/-- Programs without blocking calls are calm. -/
theorem direct_calm {g : Graph F L} {n : Nat} {as : List (Action F L)} {s : State F L} (rank : Nat → Nat)
    (h : Sched g n Direct as s) : Sched g n (Calm rank) as s ∧ (s.pool.dead = none → ∀ w ∈ s.ws, w.wait = none) := by
  induction h with
  | nil hn => exact ⟨.nil hn, fun _ w hw => absurd hw (by simp [State.init])⟩
  | @snoc as s s' a h0 h1 h2 h3 ih =>
    obtain ⟨hd0, m⟩ := move_of_step h3
    obtain ⟨i1, i2⟩ := ih
    have i2 := i2 hd0
    obtain ⟨⟨bs, hr⟩, hi⟩ := run_held h0.run
    have hinv := Pool.run_inv hr hd0
    have hcalm : ∀ rk, Calm rk s a := by
      intro rk
      cases a with
      | block i k over who => exact h2.elim
      | scan i hit full over who over' =>
        intro _ hne
        obtain ⟨j, hj⟩ := List.exists_mem_of_ne_nil _ hne
        obtain ⟨w, hw, hw1⟩ := List.mem_filterMap.1 ((hi hd0).run.mem_iff.2 (List.mem_map.2 ⟨j, hj, rfl⟩))
        refine ⟨w, hw, j.c, ?_, fun e he => ?_⟩
        · unfold Worker.callOf at hw1
          split at hw1
          · next d hd => injection hw1 with hw1; rw [hd, hw1]
          · cases hw1
        · rw [i2 w hw] at he; cases he
      | _ => trivial
    exact ⟨i1.snoc h1 (hcalm rank) h3, fun hd =>
      below_zero.1 (move_below (hi hd0) hinv (below_zero.2 i2) (hcalm (fun _ => 0)) hd m)⟩

end VS.Work
