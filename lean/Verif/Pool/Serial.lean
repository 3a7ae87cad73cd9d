import Verif.Pool.Eff2

/-!
# The mutex of a node and the frame a node is working on
-/

namespace VS.Pool

variable {F L : Type}

/-- The filter was called for the computation and is not done with it. -/
def Busy (s : State F L) (c : Nat) : Prop :=
  c ∈ s.running.map Job.c ∨
  ((c ∈ s.tasks ∨ c ∈ s.alt ∨ 0 < (s.ctx c).pending) ∧ (s.ctx c).first = false) ∨
  ((c, none) ∈ s.finished ∧ (s.ctx c).error = none)

structure Ser (g : Graph F L) (s : State F L) : Prop where
  noreq : ∀ c, (c ∈ s.tasks ∨ c ∈ s.alt ∨ c ∈ s.running.map Job.c ∨ 0 < (s.ctx c).pending) → (s.ctx c).reqs = []
  nonneg1 : ∀ c, (s.ctx c).external = false → 0 ≤ (s.ctx c).key.2
  nonneg2 : ∀ c, (s.ctx c).first = false → 0 ≤ (s.ctx c).key.2
  mutex : ∀ n, s.mutex n = true ↔ ∃ j ∈ s.running, j.serial = true ∧ (s.ctx j.c).key.1 = n
  uniq : ∀ j ∈ s.running, ∀ j' ∈ s.running, j.serial = true → j'.serial = true →
    (s.ctx j.c).key.1 = (s.ctx j'.c).key.1 → j = j'
  job : ∀ j ∈ s.running, (g.mode (s.ctx j.c).key.1 = .frameState ∨ g.mode (s.ctx j.c).key.1 = .unordered ∨
    (g.mode (s.ctx j.c).key.1 = .parallelRequests ∧ j.reason = .ready)) → j.serial = true
  reason : ∀ j ∈ s.running, j.reason = .error ↔ (s.ctx j.c).error.isSome = true
  own : ∀ n c, s.owner n = some c ↔ g.mode n = .frameState ∧ (s.ctx c).key.1 = n ∧ Busy s c
  sf : ∀ n, s.serialFrame n = match s.owner n with
    | none => -1
    | some c => (s.ctx c).key.2

theorem Acc.mem_lists {g : Graph F L} {s : State F L} {l : List Nat} (_ : Acc g s l) {c : Nat} :
    c ∈ s.lists ↔ c ∈ s.tasks ∨ c ∈ s.alt ∨ c ∈ s.running.map Job.c ∨ c ∈ s.finished.map Prod.fst ∨
      c ∈ s.returning.map Prod.fst := by
  unfold State.lists
  simp only [List.mem_append]

theorem Acc.pending_of_notify {g : Graph F L} {s : State F L} (h : Acc g s []) {c x : Nat} (hc : c ∈ s.lists)
    (hx : x ∈ (s.ctx c).notify) : 0 < (s.ctx x).pending ∧ (s.ctx c).external = false ∧ x ≠ c := by
  have hext : (s.ctx c).external = false := by
    cases he : (s.ctx c).external with
    | false => rfl
    | true => rw [h.ext_notify c he] at hx; cases hx
  have hb := h.bal x
  have := owed_ge (ctx := s.ctx) (h.mem_all c hext (.inl hc)) hx
  rw [List.count_nil, Nat.zero_add] at hb
  refine ⟨by rw [hb]; exact this, hext, ?_⟩
  rintro rfl
  have h0 := h.idle x hc
  omega

theorem Acc.disj_tasks {g : Graph F L} {s : State F L} {l : List Nat} (h : Acc g s l) {c : Nat}
    (hc : c ∈ s.tasks) : c ∉ s.alt ∧ c ∉ s.running.map Job.c ∧ c ∉ s.finished.map Prod.fst ∧
      c ∉ s.returning.map Prod.fst := by
  have hn := h.nodup
  unfold State.lists at hn
  simp only [List.nodup_append, List.mem_append] at hn
  obtain ⟨_, _, h4⟩ := hn
  exact ⟨fun hx => h4 c hc c (.inl hx) rfl, fun hx => h4 c hc c (.inr (.inl hx)) rfl,
    fun hx => h4 c hc c (.inr (.inr (.inl hx))) rfl, fun hx => h4 c hc c (.inr (.inr (.inr hx))) rfl⟩

theorem Acc.disj_run {g : Graph F L} {s : State F L} {l : List Nat} (h : Acc g s l) {c : Nat}
    (hc : c ∈ s.running.map Job.c) : c ∉ s.tasks ∧ c ∉ s.alt ∧ c ∉ s.finished.map Prod.fst ∧
      c ∉ s.returning.map Prod.fst := by
  have hn := h.nodup
  unfold State.lists at hn
  simp only [List.nodup_append, List.mem_append] at hn
  obtain ⟨_, ⟨_, ⟨_, _, h2⟩, h3⟩, h4⟩ := hn
  exact ⟨fun hx => h4 c hx c (.inr (.inl hc)) rfl, fun hx => h3 c hx c (.inl hc) rfl,
    fun hx => h2 c hc c (.inl hx) rfl, fun hx => h2 c hc c (.inr hx) rfl⟩

theorem Acc.job_inj {g : Graph F L} {s : State F L} {l : List Nat} (h : Acc g s l) {i j : Job}
    (hi : i ∈ s.running) (hj : j ∈ s.running) (e : i.c = j.c) : i = j := by
  have hn := h.nodup
  unfold State.lists at hn
  simp only [List.nodup_append] at hn
  have hr := hn.2.1.2.1.1
  clear hn
  induction hl : s.running generalizing i j with
  | nil => rw [hl] at hi; cases hi
  | cons a t ih =>
    have key : ∀ (m : List Job), (m.map Job.c).Nodup → i ∈ m → j ∈ m → i = j := by
      intro m
      induction m with
      | nil => intro _ h _; cases h
      | cons b u ihm =>
        intro hm h1 h2
        rw [List.map_cons, List.nodup_cons] at hm
        rcases List.mem_cons.1 h1 with rfl | h3 <;> rcases List.mem_cons.1 h2 with rfl | h4
        · rfl
        · exact absurd (List.mem_map.2 ⟨j, h4, e.symm⟩) hm.1
        · exact absurd (List.mem_map.2 ⟨i, h3, e⟩) hm.1
        · exact ihm hm.2 h3 h4
    exact key _ hr hi hj

theorem Acc.fresh {g : Graph F L} {s : State F L} {l : List Nat} (h : Acc g s l) {c : Nat} (hc : s.next ≤ c) :
    c ∉ s.lists := fun hx => Nat.lt_irrefl _ (Nat.lt_of_lt_of_le (h.lt c hx) hc)

theorem Busy.lt {g : Graph F L} {s : State F L} (h : Acc g s []) {c : Nat} (hb : Busy s c) : c < s.next := by
  rcases hb with hb | hb | hb
  · exact h.lt c (h.mem_lists.2 (.inr (.inr (.inl hb))))
  · rcases hb.1 with h1 | h1 | h1
    · exact h.lt c (h.mem_lists.2 (.inl h1))
    · exact h.lt c (h.mem_lists.2 (.inr (.inl h1)))
    · exact h.lt_of_pending h1
  · exact h.lt c (h.mem_lists.2 (.inr (.inr (.inr (.inl (List.mem_map.2 ⟨_, hb.1, rfl⟩))))))

theorem init_ser (g : Graph F L) : Ser g (State.init g) := by
  refine ⟨fun _ _ => rfl, fun _ _ => Int.le_refl _, fun _ _ => Int.le_refl _, ?_, ?_, ?_, ?_, ?_, fun _ => rfl⟩
  · intro n
    constructor
    · intro h; cases h
    · rintro ⟨j, hj, _⟩; cases hj
  · intro j hj; cases hj
  · intro j hj; cases hj
  · intro j hj; cases hj
  · intro n c
    constructor
    · intro h; cases h
    · rintro ⟨_, _, h | h | h⟩
      · cases h
      · rcases h.1 with h | h | h
        · cases h
        · cases h
        · exact absurd h (Nat.lt_irrefl 0)
      · cases h.1

theorem ser_request {g : Graph F L} {s s' : State F L} {k : Key} {reserve : Bool} (h : Acc g s []) (hs : Ser g s)
    (e : ReqEff g s s' k reserve) : Ser g s' := by
  have hfr := h.fresh (Nat.le_refl s.next)
  have hne : ∀ j ∈ s.running, j.c ≠ s.next := fun j hj ec =>
    hfr (h.mem_lists.2 (.inr (.inr (.inl (List.mem_map.2 ⟨j, hj, ec⟩)))))
  have hmem : ∀ x, (x ∈ s'.tasks ∨ x ∈ s'.alt) ↔ (x = s.next ∨ x ∈ s.tasks ∨ x ∈ s.alt) := by
    intro x
    rcases e.tasks with ⟨_, _, h1, h2⟩ | ⟨_, h1, h2⟩
    · rw [h1, h2, List.mem_append, List.mem_singleton]; grind
    · rw [h1, h2, List.mem_append, List.mem_singleton]; grind
  have hbusy : ∀ x, Busy s' x ↔ Busy s x := by
    intro x
    unfold Busy
    rw [e.running, e.finished]
    by_cases hx : x = s.next
    · subst hx
      rw [e.self]
      have hp := h.blank s.next (Nat.le_refl _)
      rw [hp]
      constructor
      · rintro (h1 | ⟨_, h1⟩ | ⟨h1, _⟩)
        · exact .inl h1
        · cases h1
        · exact absurd (h.mem_lists.2 (.inr (.inr (.inr (.inl (List.mem_map.2 ⟨_, h1, rfl⟩)))))) hfr
      · rintro (h1 | ⟨h1, _⟩ | ⟨h1, _⟩)
        · exact .inl h1
        · rcases h1 with h1 | h1 | h1
          · exact absurd (h.mem_lists.2 (.inl h1)) hfr
          · exact absurd (h.mem_lists.2 (.inr (.inl h1))) hfr
          · exact absurd h1 (Nat.lt_irrefl 0)
        · exact absurd (h.mem_lists.2 (.inr (.inr (.inr (.inl (List.mem_map.2 ⟨_, h1, rfl⟩)))))) hfr
    · rw [e.other x hx, ← or_assoc (a := x ∈ s'.tasks), hmem, ← or_assoc (a := x ∈ s.tasks)]
      simp [hx]
  have hctx : ∀ x, x < s.next → s'.ctx x = s.ctx x := fun x hx => e.other x (Nat.ne_of_lt hx)
  refine ⟨?_, ?_, ?_, ?_, ?_, ?_, ?_, ?_, ?_⟩
  · intro c hc
    by_cases hx : c = s.next
    · rw [hx, e.self]; rfl
    · rw [e.other c hx] at hc ⊢
      rw [e.running] at hc
      refine hs.noreq c ?_
      rcases hc with hc | hc | hc
      · rcases (hmem c).1 (.inl hc) with h1 | h1 | h1
        · exact absurd h1 hx
        · exact .inl h1
        · exact .inr (.inl h1)
      · rcases (hmem c).1 (.inr hc) with h1 | h1 | h1
        · exact absurd h1 hx
        · exact .inl h1
        · exact .inr (.inl h1)
      · exact .inr (.inr hc)
  · intro c hc
    by_cases hx : c = s.next
    · rw [hx, e.self] at hc; cases hc
    · rw [e.other c hx] at hc ⊢; exact hs.nonneg1 c hc
  · intro c hc
    by_cases hx : c = s.next
    · rw [hx, e.self] at hc; cases hc
    · rw [e.other c hx] at hc ⊢; exact hs.nonneg2 c hc
  · intro n
    rw [e.mutex, e.running, hs.mutex]
    constructor
    · rintro ⟨j, hj, h1, h2⟩; exact ⟨j, hj, h1, by rw [e.other _ (hne j hj)]; exact h2⟩
    · rintro ⟨j, hj, h1, h2⟩; exact ⟨j, hj, h1, by rw [e.other _ (hne j hj)] at h2; exact h2⟩
  · rw [e.running]
    intro j hj j' hj'
    rw [e.other _ (hne j hj), e.other _ (hne j' hj')]
    exact hs.uniq j hj j' hj'
  · rw [e.running]
    intro j hj
    rw [e.other _ (hne j hj)]
    exact hs.job j hj
  · rw [e.running]
    intro j hj
    rw [e.other _ (hne j hj)]
    exact hs.reason j hj
  · intro n c
    rw [e.owner, hs.own, hbusy]
    constructor
    · rintro ⟨h1, h2, h3⟩; exact ⟨h1, by rw [hctx c (h3.lt h)]; exact h2, h3⟩
    · rintro ⟨h1, h2, h3⟩; exact ⟨h1, by rw [hctx c (h3.lt h)] at h2; exact h2, h3⟩
  · intro n
    rw [e.serialFrame, e.owner, hs.sf n]
    cases ho : s.owner n with
    | none => rfl
    | some c => simp only; rw [hctx c (((hs.own n c).1 ho).2.2.lt h)]

theorem EndEff.lists {g : Graph F L} {s s' : State F L} {c : Nat} {r : Except String F} (h : Acc g s [])
    (e : EndEff s s' c r) : c ∈ s.lists := by
  rcases e.work with h1 | h1
  · exact h.mem_lists.2 (.inl h1)
  · exact h.mem_lists.2 (.inr (.inr (.inr (.inl h1))))

/-- Those that did not wait for the computation stay as they are. -/
theorem EndEff.other {g : Graph F L} {s s' : State F L} {c : Nat} {r : Except String F} (h : Acc g s [])
    (e : EndEff s s' c r) {x : Nat} (hx : (s.ctx x).pending = 0) : s'.ctx x = s.ctx x := by
  have hg := e.gets x
  have : (s.ctx c).notify.count x = 0 := by
    refine List.count_eq_zero.2 (fun hm => ?_)
    have := (h.pending_of_notify (e.lists h) hm).1
    omega
  rw [this] at hg
  exact hg.zero

theorem ser_end {g : Graph F L} {s s' : State F L} {c : Nat} {r : Except String F} (h : Acc g s []) (hs : Ser g s)
    (e : EndEff s s' c r) (hb : ¬ Busy s c) : Ser g s' := by
  have hcl := e.lists h
  have hkey : ∀ x, (s'.ctx x).key = (s.ctx x).key := fun x => (e.gets x).same.key
  have hfirst : ∀ x, (s'.ctx x).first = (s.ctx x).first := fun x => (e.gets x).same.first
  have hcnt : ∀ x, x ∈ (s.ctx c).notify → 0 < (s.ctx x).pending := fun x hx => (h.pending_of_notify hcl hx).1
  have hbusy : ∀ x, Busy s' x ↔ Busy s x := by
    intro x
    unfold Busy
    rw [e.rest.running, e.rest.alt, hfirst, e.finished, e.tasks]
    constructor
    · rintro (h1 | ⟨h1, h2⟩ | ⟨h1, h2⟩)
      · exact .inl h1
      · refine .inr (.inl ⟨?_, h2⟩)
        rcases h1 with (h1 | h1) | h1 | h1
        · exact .inl h1.1
        · exact .inr (.inr (hcnt x h1.1))
        · exact .inr (.inl h1)
        · right; right
          have := (e.gets x).pending
          omega
      · refine .inr (.inr ⟨h1.1, ?_⟩)
        have hx : x ∈ s.lists := h.mem_lists.2 (.inr (.inr (.inr (.inl (List.mem_map.2 ⟨_, h1.1, rfl⟩)))))
        rw [e.other h (h.idle x hx)] at h2
        exact h2
    · rintro (h1 | ⟨h1, h2⟩ | ⟨h1, h2⟩)
      · exact .inl h1
      · refine .inr (.inl ⟨?_, h2⟩)
        rcases h1 with h1 | h1 | h1
        · refine .inl (.inl ⟨h1, ?_⟩)
          rintro rfl
          exact hb (.inr (.inl ⟨.inl h1, h2⟩))
        · exact .inr (.inl h1)
        · by_cases h0 : (s'.ctx x).pending = 0
          · refine .inl (.inr ⟨?_, h0⟩)
            have := (e.gets x).pending
            exact List.count_pos_iff.1 (by omega)
          · right; right; omega
      · refine .inr (.inr ⟨⟨h1, ?_⟩, ?_⟩)
        · rintro rfl
          exact hb (.inr (.inr ⟨h1, h2⟩))
        · have hx : x ∈ s.lists := h.mem_lists.2 (.inr (.inr (.inr (.inl (List.mem_map.2 ⟨_, h1, rfl⟩)))))
          rw [e.other h (h.idle x hx)]
          exact h2
  refine ⟨?_, ?_, ?_, ?_, ?_, ?_, ?_, ?_, ?_⟩
  · intro x hx
    rw [(e.gets x).same.reqs]
    refine hs.noreq x ?_
    rw [e.tasks, e.rest.alt, e.rest.running] at hx
    rcases hx with (h1 | h1) | h1 | h1 | h1
    · exact .inl h1.1
    · exact .inr (.inr (.inr (hcnt x h1.1)))
    · exact .inr (.inl h1)
    · exact .inr (.inr (.inl h1))
    · have := (e.gets x).pending
      exact .inr (.inr (.inr (by omega)))
  · intro x hx; rw [hkey]; rw [(e.gets x).same.external] at hx; exact hs.nonneg1 x hx
  · intro x hx; rw [hkey]; rw [hfirst] at hx; exact hs.nonneg2 x hx
  · intro n
    rw [e.rest.mutex, e.rest.running, hs.mutex]
    simp only [hkey]
  · rw [e.rest.running]
    simp only [hkey]
    exact hs.uniq
  · rw [e.rest.running]
    simp only [hkey]
    exact hs.job
  · rw [e.rest.running]
    intro j hj
    have hx : j.c ∈ s.lists := h.mem_lists.2 (.inr (.inr (.inl (List.mem_map.2 ⟨_, hj, rfl⟩))))
    rw [e.other h (h.idle _ hx)]
    exact hs.reason j hj
  · intro n x
    rw [e.rest.owner, hs.own, hkey, hbusy]
  · intro n
    rw [e.rest.serialFrame, e.rest.owner, hs.sf n]
    cases s.owner n with
    | none => rfl
    | some x => simp only; rw [hkey]

theorem reason_ready {x : Ctx F L} (h : x.reason = .ready) : x.first = false := by
  unfold Ctx.reason at h
  split at h
  · cases h
  · split at h
    · next h1 => simpa using h1
    · cases h

theorem reason_error {x : Ctx F L} : x.reason = .error ↔ x.error.isSome = true := by
  unfold Ctx.reason
  split
  · next h => simp [h]
  · next h =>
    split
    · simp [h]
    · simp [h]

theorem Acc.first_false {g : Graph F L} {s : State F L} {l : List Nat} (h : Acc g s l) {c : Nat}
    (hc : c ∈ s.running.map Job.c ∨ c ∈ s.finished.map Prod.fst) (he : (s.ctx c).error = none) :
    (s.ctx c).first = false := by
  cases hf : (s.ctx c).first with
  | false => rfl
  | true => have := h.first_run c hf hc; rw [he] at this; cases this

/-- When a worker gets the mutex of a node, no other computation owns the node. -/
theorem CallEff.unowned {g : Graph F L} {s s' : State F L} {c : Nat} {serial : Bool} (h : Acc g s []) (hs : Ser g s)
    (e : CallEff g s s' c serial) (hm : g.mode (s.ctx c).key.1 = .frameState) :
    s.owner (s.ctx c).key.1 = none ∨ s.owner (s.ctx c).key.1 = some c := by
  have hser : serial = true := by rw [e.useS, hm]; rfl
  obtain ⟨h1, h2⟩ := e.free hser
  rcases h2 hm with h3 | h3
  · left
    cases ho : s.owner (s.ctx c).key.1 with
    | none => rfl
    | some o =>
      exfalso
      obtain ⟨b1, b2, b3⟩ := (hs.own _ o).1 ho
      have hsf := hs.sf (s.ctx c).key.1
      rw [ho, h3] at hsf
      simp only at hsf
      rcases b3 with b3 | b3 | b3
      · obtain ⟨j, hj, hjc⟩ := List.mem_map.1 b3
        have hjs : j.serial = true := hs.job j hj (.inl (by rw [hjc, b2]; exact b1))
        have : s.mutex (s.ctx c).key.1 = true := (hs.mutex _).2 ⟨j, hj, hjs, by rw [hjc]; exact b2⟩
        rw [h1] at this; cases this
      · have := hs.nonneg2 o b3.2
        omega
      · have hf := h.first_false (.inr (List.mem_map.2 ⟨_, b3.1, rfl⟩)) b3.2
        have := hs.nonneg2 o hf
        omega
  · exact .inr h3

theorem requestError_none {g : Graph F L} {k : Key} (h : g.requestError k = none) :
    0 ≤ k.2 ∧ k.2 < g.numFrames k.1 := by
  unfold Graph.requestError at h
  split at h
  · cases h
  · omega

theorem ser_call {g : Graph F L} {s s' : State F L} {c : Nat} {serial : Bool} (h : Acc g s []) (hs : Ser g s)
    (e : CallEff g s s' c serial) : Ser g s' := by
  have hcl : c ∈ s.lists := h.mem_lists.2 (.inl e.mem)
  have hd := h.disj_tasks e.mem
  have hp0 := h.idle c hcl
  have hne : ∀ j ∈ s.running, j.c ≠ c := fun j hj ec => hd.2.1 (List.mem_map.2 ⟨j, hj, ec⟩)
  have hkey : ∀ x, (s'.ctx x).key = (s.ctx x).key := by
    intro x; by_cases ex : x = c
    · rw [ex, e.self]
    · rw [e.other x ex]
  have hbc : Busy s' c := .inl (by rw [e.running]; exact List.mem_cons_self ..)
  have hbusy : ∀ x, x ≠ c → (Busy s' x ↔ Busy s x) := by
    intro x hx
    unfold Busy
    rw [e.running, List.map_cons, List.mem_cons, e.alt, e.finished, e.other x hx, e.tasks]
    simp [hx]
  refine ⟨?_, ?_, ?_, ?_, ?_, ?_, ?_, ?_, ?_⟩
  · intro x hx
    by_cases ex : x = c
    · rw [ex, e.self]; exact hs.noreq c (.inl e.mem)
    · rw [e.other x ex] at hx ⊢
      rw [e.tasks, e.alt, e.running, List.map_cons, List.mem_cons] at hx
      refine hs.noreq x ?_
      rcases hx with h1 | h1 | (h1 | h1) | h1
      · exact .inl h1.1
      · exact .inr (.inl h1)
      · exact absurd h1 ex
      · exact .inr (.inr (.inl h1))
      · exact .inr (.inr (.inr h1))
  · intro x hx
    rw [hkey]
    refine hs.nonneg1 x ?_
    by_cases ex : x = c
    · rw [ex, e.self] at hx; rw [ex]; exact hx
    · rw [e.other x ex] at hx; exact hx
  · intro x hx
    rw [hkey]
    by_cases ex : x = c
    · subst ex
      rw [e.self] at hx
      by_cases hr : (s.ctx x).reason = .initial
      · cases hext : (s.ctx x).external with
        | false => exact hs.nonneg1 x hext
        | true =>
          cases hf : (s.ctx x).first with
          | false => exact hs.nonneg2 x hf
          | true =>
            have h1 := (h.first_ok x hf).2.2.1 hext
            have h2 : (s.ctx x).error = none := by
              cases he : (s.ctx x).error with
              | none => rfl
              | some m =>
                have := reason_error.2 (show (s.ctx x).error.isSome = true by rw [he]; rfl)
                rw [hr] at this; cases this
            rw [h2] at h1
            exact (requestError_none h1.symm).1
      · simp only [if_neg hr] at hx
        exact hs.nonneg2 x hx
    · rw [e.other x ex] at hx; exact hs.nonneg2 x hx
  · intro n
    rw [e.mutex, e.running]
    simp only [hkey, List.mem_cons]
    cases hser : serial with
    | false =>
      simp only [Bool.false_eq_true, if_false]
      rw [hs.mutex]
      constructor
      · rintro ⟨j, hj, h1⟩; exact ⟨j, .inr hj, h1⟩
      · rintro ⟨j, rfl | hj, h1, h2⟩
        · cases h1
        · exact ⟨j, hj, h1, h2⟩
    | true =>
      simp only [if_true]
      by_cases en : n = (s.ctx c).key.1
      · subst en
        rw [upd_self]
        exact ⟨fun _ => ⟨_, .inl rfl, rfl, rfl⟩, fun _ => rfl⟩
      · rw [upd_ne _ _ en, hs.mutex]
        constructor
        · rintro ⟨j, hj, h1⟩; exact ⟨j, .inr hj, h1⟩
        · rintro ⟨j, rfl | hj, h1, h2⟩
          · exact absurd h2.symm en
          · exact ⟨j, hj, h1, h2⟩
  · rw [e.running]
    simp only [hkey]
    intro j hj j' hj' h1 h2 h3
    rcases List.mem_cons.1 hj with rfl | hj <;> rcases List.mem_cons.1 hj' with rfl | hj'
    · rfl
    · exfalso
      have := (e.free h1).1
      have hm := (hs.mutex (s.ctx c).key.1).2 ⟨j', hj', h2, h3.symm⟩
      rw [this] at hm; cases hm
    · exfalso
      have := (e.free h2).1
      have hm := (hs.mutex (s.ctx c).key.1).2 ⟨j, hj, h1, h3⟩
      rw [this] at hm; cases hm
    · exact hs.uniq j hj j' hj' h1 h2 h3
  · rw [e.running]
    simp only [hkey]
    intro j hj hmode
    rcases List.mem_cons.1 hj with rfl | hj
    · show serial = true
      rw [e.useS]
      unfold useSerial
      rcases hmode with hm | hm | ⟨hm, hr⟩
      · rw [show g.mode (s.ctx c).key.1 = .frameState from hm]; rfl
      · rw [show g.mode (s.ctx c).key.1 = .unordered from hm]; rfl
      · rw [show g.mode (s.ctx c).key.1 = .parallelRequests from hm, reason_ready hr]; rfl
    · exact hs.job j hj hmode
  · rw [e.running]
    intro j hj
    rcases List.mem_cons.1 hj with rfl | hj
    · rw [e.self]; exact reason_error
    · rw [e.other _ (hne j hj)]; exact hs.reason j hj
  · intro n x
    rw [hkey]
    by_cases hm : g.mode (s.ctx c).key.1 = .frameState
    · have hun := e.unowned h hs hm
      have hser : serial = true := by rw [e.useS, hm]; rfl
      -- the owner afterwards
      have how : s'.owner = upd s.owner (s.ctx c).key.1 (some c) := by
        rcases e.sf with ⟨_, _, _, _, h2⟩ | ⟨h1, _, h2⟩
        · exact h2
        · rw [h2]
          have h3 : s.owner (s.ctx c).key.1 = some c := by
            rcases hun with h4 | h4
            · have := hs.sf (s.ctx c).key.1
              rw [h4] at this
              exact absurd ⟨hser, hm, this⟩ h1
            · exact h4
          funext i
          by_cases ei : i = (s.ctx c).key.1
          · rw [ei, upd_self, h3]
          · rw [upd_ne _ _ ei]
      rw [how]
      by_cases en : n = (s.ctx c).key.1
      · subst en
        rw [upd_self]
        constructor
        · intro ho
          injection ho with ho
          subst ho
          exact ⟨hm, rfl, hbc⟩
        · rintro ⟨_, h2, h3⟩
          by_cases ex : x = c
          · rw [ex]
          · exfalso
            have := (hs.own _ x).2 ⟨hm, h2, (hbusy x ex).1 h3⟩
            rcases hun with h4 | h4
            · rw [h4] at this; cases this
            · rw [h4] at this; injection this with this; exact ex this.symm
      · rw [upd_ne _ _ en, hs.own]
        by_cases ex : x = c
        · subst ex
          exact ⟨fun h1 => absurd h1.2.1.symm en, fun h1 => absurd h1.2.1.symm en⟩
        · rw [hbusy x ex]
    · have how : s'.owner = s.owner := by
        rcases e.sf with ⟨_, h1, _⟩ | ⟨_, _, h2⟩
        · exact absurd h1 hm
        · exact h2
      rw [how, hs.own]
      by_cases ex : x = c
      · subst ex
        constructor
        · rintro ⟨h1, h2, _⟩; rw [h2] at hm; exact absurd h1 hm
        · rintro ⟨h1, h2, _⟩; rw [h2] at hm; exact absurd h1 hm
      · rw [hbusy x ex]
  · intro n
    have hsf := hs.sf n
    rcases e.sf with ⟨_, _, _, h1, h2⟩ | ⟨_, h1, h2⟩
    · rw [h1, h2]
      by_cases en : n = (s.ctx c).key.1
      · subst en
        rw [upd_self, upd_self]
        simp only
        rw [hkey]
      · rw [upd_ne _ _ en, upd_ne _ _ en, hsf]
        cases s.owner n with
        | none => rfl
        | some x => simp only; rw [hkey]
    · rw [h1, h2, hsf]
      cases s.owner n with
      | none => rfl
      | some x => simp only; rw [hkey]

theorem ser_ret {g : Graph F L} {s s' : State F L} {j : Job} {o : Outcome F L} (h : Acc g s []) (hs : Ser g s)
    (e : RetEff g s s' j o) : Ser g s' := by
  have hcr : j.c ∈ s.running.map Job.c := List.mem_map.2 ⟨j, e.mem, rfl⟩
  have hcl : j.c ∈ s.lists := h.mem_lists.2 (.inr (.inr (.inl hcr)))
  have hd := h.disj_run hcr
  have hp0 := h.idle j.c hcl
  have hkey : ∀ x, (s'.ctx x).key = (s.ctx x).key := by
    intro x; by_cases ex : x = j.c
    · rw [ex, e.self]; rfl
    · rw [e.other x ex]
  have hrunmem : ∀ x, x ∈ s'.running.map Job.c ↔ x ∈ s.running.map Job.c ∧ x ≠ j.c := by
    intro x
    simp only [List.mem_map, e.running]
    constructor
    · rintro ⟨i, hi, rfl⟩; exact ⟨⟨i, hi.1, rfl⟩, hi.2⟩
    · rintro ⟨⟨i, hi, rfl⟩, h2⟩; exact ⟨i, ⟨hi, h2⟩, rfl⟩
  have hbusy : ∀ x, x ≠ j.c → (Busy s' x ↔ Busy s x) := by
    intro x hx
    unfold Busy
    rw [hrunmem, e.alt, e.finished, e.other x hx, e.tasks, List.mem_cons]
    have : ¬ ((x, none) = (j.c, o.frame)) := fun a => hx (congrArg Prod.fst a)
    simp [hx]
  have hbc : Busy s' j.c ↔ ¬ (o.frame.isSome = true ∨ ((s.ctx j.c).after g o).error.isSome = true) := by
    unfold Busy
    rw [hrunmem, e.alt, e.finished, e.self, e.tasks, List.mem_cons]
    have hpa : ((s.ctx j.c).after g o).pending = 0 := hp0
    constructor
    · rintro (h1 | ⟨h1, _⟩ | ⟨h1, h2⟩)
      · exact absurd rfl h1.2
      · rcases h1 with h1 | h1 | h1
        · exact absurd h1 hd.1
        · exact absurd h1 hd.2.1
        · rw [hpa] at h1; exact absurd h1 (Nat.lt_irrefl 0)
      · rcases h1 with h1 | h1
        · have := congrArg Prod.snd h1
          rw [show o.frame = none from this.symm, h2]
          simp
        · exact absurd (List.mem_map.2 ⟨_, h1, rfl⟩) hd.2.2.1
    · intro hn
      right; right
      rw [not_or] at hn
      refine ⟨.inl ?_, by simpa using hn.2⟩
      rw [show o.frame = none by simpa using hn.1]
  refine ⟨?_, ?_, ?_, ?_, ?_, ?_, ?_, ?_, ?_⟩
  · intro x hx
    rw [e.tasks, e.alt, hrunmem] at hx
    by_cases ex : x = j.c
    · subst ex
      rw [e.self] at hx
      rcases hx with h1 | h1 | h1 | h1
      · exact absurd h1 hd.1
      · exact absurd h1 hd.2.1
      · exact absurd rfl h1.2
      · rw [show ((s.ctx j.c).after g o).pending = 0 from hp0] at h1; exact absurd h1 (Nat.lt_irrefl 0)
    · rw [e.other x ex] at hx ⊢
      refine hs.noreq x ?_
      rcases hx with h1 | h1 | h1 | h1
      · exact .inl h1
      · exact .inr (.inl h1)
      · exact .inr (.inr (.inl h1.1))
      · exact .inr (.inr (.inr h1))
  · intro x hx
    rw [hkey]
    refine hs.nonneg1 x ?_
    by_cases ex : x = j.c
    · rw [ex, e.self] at hx; rw [ex]; exact hx
    · rw [e.other x ex] at hx; exact hx
  · intro x hx
    rw [hkey]
    refine hs.nonneg2 x ?_
    by_cases ex : x = j.c
    · rw [ex, e.self] at hx; rw [ex]; exact hx
    · rw [e.other x ex] at hx; exact hx
  · intro n
    rw [e.mutex]
    simp only [hkey, e.running]
    cases hser : j.serial with
    | false =>
      simp only [Bool.false_eq_true, if_false]
      rw [hs.mutex]
      constructor
      · rintro ⟨i, hi, h1, h2⟩
        refine ⟨i, ⟨hi, fun ec => ?_⟩, h1, h2⟩
        rw [h.job_inj hi e.mem ec, hser] at h1; cases h1
      · rintro ⟨i, hi, h1⟩; exact ⟨i, hi.1, h1⟩
    | true =>
      simp only [if_true]
      by_cases en : n = (s.ctx j.c).key.1
      · subst en
        rw [upd_self]
        constructor
        · intro h1; cases h1
        · rintro ⟨i, hi, h1, h2⟩
          have := hs.uniq i hi.1 j e.mem h1 hser h2
          exact absurd (congrArg Job.c this) hi.2
      · rw [upd_ne _ _ en, hs.mutex]
        constructor
        · rintro ⟨i, hi, h1, h2⟩
          exact ⟨i, ⟨hi, fun ec => by rw [ec] at h2; exact en h2.symm⟩, h1, h2⟩
        · rintro ⟨i, hi, h1⟩; exact ⟨i, hi.1, h1⟩
  · simp only [hkey]
    intro i hi i' hi'
    exact hs.uniq i ((e.running i).1 hi).1 i' ((e.running i').1 hi').1
  · simp only [hkey]
    intro i hi
    exact hs.job i ((e.running i).1 hi).1
  · intro i hi
    have := (e.running i).1 hi
    rw [e.other _ this.2]
    exact hs.reason i this.1
  · intro n x
    rw [hkey]
    rcases e.sf with ⟨h1, h2, h3, _, h5⟩ | ⟨h1, _, h5⟩
    · rw [h5]
      by_cases en : n = (s.ctx j.c).key.1
      · subst en
        rw [upd_self]
        constructor
        · intro ho; cases ho
        · rintro ⟨_, b2, b3⟩
          exfalso
          by_cases ex : x = j.c
          · rw [ex] at b3
            exact (hbc.1 b3) h3
          · have o1 := (hs.own _ x).2 ⟨h2, b2, (hbusy x ex).1 b3⟩
            have o2 := (hs.own _ j.c).2 ⟨h2, rfl, .inl hcr⟩
            rw [o1] at o2
            injection o2 with o2
            exact ex o2
      · rw [upd_ne _ _ en, hs.own]
        by_cases ex : x = j.c
        · subst ex
          exact ⟨fun h1 => absurd h1.2.1.symm en, fun h1 => absurd h1.2.1.symm en⟩
        · rw [hbusy x ex]
    · rw [h5, hs.own]
      by_cases ex : x = j.c
      · subst ex
        constructor
        · rintro ⟨b1, b2, _⟩
          refine ⟨b1, b2, hbc.2 (fun hd => h1 ⟨?_, by rw [b2]; exact b1, hd⟩)⟩
          exact hs.job j e.mem (.inl (by rw [b2]; exact b1))
        · rintro ⟨b1, b2, _⟩
          exact ⟨b1, b2, .inl hcr⟩
      · rw [hbusy x ex]
  · intro n
    have hsf := hs.sf n
    rcases e.sf with ⟨_, _, _, h1, h2⟩ | ⟨_, h1, h2⟩
    · rw [h1, h2]
      by_cases en : n = (s.ctx j.c).key.1
      · subst en
        rw [upd_self, upd_self]
      · rw [upd_ne _ _ en, upd_ne _ _ en, hsf]
        cases s.owner n with
        | none => rfl
        | some x => simp only; rw [hkey]
    · rw [h1, h2, hsf]
      cases s.owner n with
      | none => rfl
      | some x => simp only; rw [hkey]

theorem WaitEff.lt {g : Graph F L} {s s' : State F L} {c : Nat} (h : Acc g s []) (e : WaitEff g s s' c) : c < s.next :=
  h.lt c (h.mem_lists.2 (.inr (.inr (.inr (.inl (List.mem_map.2 ⟨_, e.mem, rfl⟩))))))

theorem ser_wait {g : Graph F L} {s s' : State F L} {c : Nat} (h : Acc g s []) (h' : Acc g s' []) (hs : Ser g s)
    (e : WaitEff g s s' c) : Ser g s' := by
  have hcf : c ∈ s.finished.map Prod.fst := List.mem_map.2 ⟨_, e.mem, rfl⟩
  have hlt : c < s.next := e.lt h
  have hfirst : (s.ctx c).first = false := h.first_false (.inr hcf) e.error
  have hd := h.disj_fin hcf
  have hblank : ∀ x, s.next ≤ x → s.ctx x = Ctx.blank g.init := h.blank
  have hkey : ∀ x, x < s.next → (s'.ctx x).key = (s.ctx x).key := by
    intro x hx; by_cases ex : x = c
    · rw [ex, e.self.key]; rfl
    · exact (e.old x hx ex).key
  have hrlt : ∀ j ∈ s.running, j.c < s.next ∧ j.c ≠ c := fun j hj =>
    have hm : j.c ∈ s.running.map Job.c := List.mem_map.2 ⟨_, hj, rfl⟩
    ⟨h.lt _ (h.mem_lists.2 (.inr (.inr (.inl hm)))), fun ec => hd.2.2.1 (ec ▸ hm)⟩
  have hpos : 0 < (s'.ctx c).pending := by
    rw [e.self.pending]
    exact List.length_pos_iff.2 e.reqs
  have hbusy : ∀ x, Busy s' x ↔ Busy s x := by
    intro x
    by_cases hx : x < s.next
    · by_cases ex : x = c
      · subst ex
        refine ⟨fun _ => .inr (.inr ⟨e.mem, e.error⟩), fun _ => .inr (.inl ⟨.inr (.inr hpos), ?_⟩)⟩
        rw [e.self.first]; exact hfirst
      · have gr := e.old x hx ex
        unfold Busy
        rw [e.running, e.alt, e.finished, e.tasks, gr.pending, gr.first, gr.error]
        have : ¬ (s.next ≤ x ∧ x < s'.next) := by omega
        simp [ex, this]
    · have hx' : s.next ≤ x := Nat.le_of_not_lt hx
      constructor
      · intro hb
        exfalso
        have hlt' := hb.lt h'
        have fr := (e.new x hx' hlt').1
        rcases hb with h1 | ⟨_, h1⟩ | ⟨h1, _⟩
        · rw [e.running] at h1
          exact hx (h.lt x (h.mem_lists.2 (.inr (.inr (.inl h1)))))
        · rw [fr.first] at h1; cases h1
        · exact hx (h.lt x (h.mem_lists.2 (.inr (.inr (.inr (.inl (List.mem_map.2 ⟨_, ((e.finished _).1 h1).1, rfl⟩))))))
            )
      · intro hb; exact absurd (hb.lt h) hx
  refine ⟨?_, ?_, ?_, ?_, ?_, ?_, ?_, ?_, ?_⟩
  · intro x hx
    by_cases hxn : x < s.next
    · by_cases ex : x = c
      · rw [ex, e.self.reqs]; rfl
      · have gr := e.old x hxn ex
        rw [gr.reqs]
        refine hs.noreq x ?_
        rw [e.tasks, e.alt, e.running, gr.pending] at hx
        rcases hx with (h1 | h1) | h1
        · exact .inl h1
        · omega
        · exact .inr h1
    · by_cases hxn' : x < s'.next
      · exact (e.new x (by omega) hxn').1.reqs
      · rw [h'.blank x (by omega)]; rfl
  · intro x hx
    by_cases hxn : x < s.next
    · rw [hkey x hxn]
      refine hs.nonneg1 x ?_
      by_cases ex : x = c
      · rw [ex, e.self.external] at hx; rw [ex]; exact hx
      · rw [(e.old x hxn ex).external] at hx; exact hx
    · by_cases hxn' : x < s'.next
      · exact e.nonneg _ (e.new x (by omega) hxn').2.1
      · rw [h'.blank x (by omega)]; exact Int.le_refl _
  · intro x hx
    by_cases hxn : x < s.next
    · rw [hkey x hxn]
      refine hs.nonneg2 x ?_
      by_cases ex : x = c
      · rw [ex]; exact hfirst
      · rw [(e.old x hxn ex).first] at hx; exact hx
    · by_cases hxn' : x < s'.next
      · rw [(e.new x (by omega) hxn').1.first] at hx; cases hx
      · rw [h'.blank x (by omega)]; exact Int.le_refl _
  · intro n
    rw [e.mutex, e.running, hs.mutex]
    constructor
    · rintro ⟨j, hj, h1, h2⟩; exact ⟨j, hj, h1, by rw [hkey _ (hrlt j hj).1]; exact h2⟩
    · rintro ⟨j, hj, h1, h2⟩; exact ⟨j, hj, h1, by rw [hkey _ (hrlt j hj).1] at h2; exact h2⟩
  · rw [e.running]
    intro j hj j' hj'
    rw [hkey _ (hrlt j hj).1, hkey _ (hrlt j' hj').1]
    exact hs.uniq j hj j' hj'
  · rw [e.running]
    intro j hj
    rw [hkey _ (hrlt j hj).1]
    exact hs.job j hj
  · rw [e.running]
    intro j hj
    rw [(e.old _ (hrlt j hj).1 (hrlt j hj).2).error]
    exact hs.reason j hj
  · intro n x
    rw [e.owner, hs.own, hbusy]
    constructor
    · rintro ⟨h1, h2, h3⟩; exact ⟨h1, by rw [hkey x (h3.lt h)]; exact h2, h3⟩
    · rintro ⟨h1, h2, h3⟩; exact ⟨h1, by rw [hkey x (h3.lt h)] at h2; exact h2, h3⟩
  · intro n
    rw [e.serialFrame, e.owner, hs.sf n]
    cases ho : s.owner n with
    | none => rfl
    | some x => simp only; rw [hkey x (((hs.own n x).1 ho).2.2.lt h)]

theorem ser_swap {g : Graph F L} {s : State F L} (hs : Ser g s) : Ser g s.swap := by
  have hbusy : ∀ x, Busy s.swap x ↔ Busy s x := by
    intro x
    unfold Busy
    show _ ∨ ((x ∈ s.alt ∨ x ∈ s.tasks ∨ _) ∧ _) ∨ _ ↔ _ ∨ ((x ∈ s.tasks ∨ x ∈ s.alt ∨ _) ∧ _) ∨ _
    rw [or_left_comm (a := x ∈ s.alt)]
    exact Iff.rfl
  refine ⟨?_, hs.nonneg1, hs.nonneg2, hs.mutex, hs.uniq, hs.job, hs.reason, ?_, hs.sf⟩
  · intro c hc
    refine hs.noreq c ?_
    rcases hc with h1 | h1 | h1
    · exact .inr (.inl h1)
    · exact .inl h1
    · exact .inr (.inr h1)
  · intro n c
    rw [hbusy]
    exact hs.own n c

/-- A computation whose end is due is not busy. -/
theorem hit_not_busy {g : Graph F L} {s : State F L} {c : Nat} (h : Acc g s []) (hc : c ∈ s.tasks)
    (hf : (s.ctx c).first = true) : ¬ Busy s c := by
  have hd := h.disj_tasks hc
  rintro (h1 | ⟨_, h1⟩ | ⟨h1, _⟩)
  · exact hd.2.1 h1
  · rw [hf] at h1; cases h1
  · exact hd.2.2.1 (List.mem_map.2 ⟨_, h1, rfl⟩)

theorem fin_inj {g : Graph F L} {s : State F L} (h : Acc g s []) {p q : Nat × Option F} (hp : p ∈ s.finished)
    (hq : q ∈ s.finished) (e : p.1 = q.1) : p = q := by
  have key : ∀ (m : List (Nat × Option F)), (m.map Prod.fst).Nodup → p ∈ m → q ∈ m → p = q := by
    intro m
    induction m with
    | nil => intro _ h _; cases h
    | cons b u ihm =>
      intro hm h1 h2
      rw [List.map_cons, List.nodup_cons] at hm
      rcases List.mem_cons.1 h1 with rfl | h3 <;> rcases List.mem_cons.1 h2 with rfl | h4
      · rfl
      · exact absurd (List.mem_map.2 ⟨q, h4, e.symm⟩) hm.1
      · exact absurd (List.mem_map.2 ⟨p, h3, e⟩) hm.1
      · exact ihm hm.2 h3 h4
  exact key _ h.nodup_fin hp hq

theorem done_not_busy {g : Graph F L} {s : State F L} {p : Nat × Option F} {r : Except String F} (h : Acc g s [])
    (hp : p ∈ s.finished) (hr : match (s.ctx p.1).error with
      | some m => r = .error m
      | none => ∃ f, p.2 = some f ∧ r = .ok f) : ¬ Busy s p.1 := by
  have hpm : p.1 ∈ s.finished.map Prod.fst := List.mem_map.2 ⟨_, hp, rfl⟩
  have hd := h.disj_fin hpm
  rintro (h1 | ⟨h1, _⟩ | ⟨h1, h2⟩)
  · exact hd.2.2.1 h1
  · rcases h1 with h1 | h1 | h1
    · exact hd.1 h1
    · exact hd.2.1 h1
    · have := h.idle p.1 (h.mem_lists.2 (.inr (.inr (.inr (.inl hpm)))))
      omega
  · rw [h2] at hr
    obtain ⟨f, hf, _⟩ := hr
    have := fin_inj h hp h1 rfl
    rw [this] at hf
    cases hf

theorem step_ser {g : Graph F L} {s s' : State F L} {a : Action F L} (h : Acc g s []) (h' : Acc g s' [])
    (hs : Ser g s) (e : Eff g s s' a) : Ser g s' := by
  cases e with
  | request k reserve e => exact ser_request h hs e
  | setFlush e =>
    subst e
    exact ⟨hs.noreq, hs.nonneg1, hs.nonneg2, hs.mutex, hs.uniq, hs.job, hs.reason, hs.own, hs.sf⟩
  | hit hc hf _ _ e => exact ser_end h hs e (hit_not_busy h hc hf)
  | call e => exact ser_call h hs e
  | swap _ _ _ _ _ e => subst e; exact ser_swap hs
  | ret e => exact ser_ret h hs e
  | done hp hr e => exact ser_end h hs e (done_not_busy h hp hr)
  | wait e => exact ser_wait h h' hs e
  | callback _ e =>
    subst e
    exact ⟨hs.noreq, hs.nonneg1, hs.nonneg2, hs.mutex, hs.uniq, hs.job, hs.reason, hs.own, hs.sf⟩

/-- Induction over the states of a schedule that has not ended in a fatal error. -/
theorem run_ind {g : Graph F L} {P : State F L → Prop} (h0 : P (State.init g))
    (hstep : ∀ s s' a, Acc g s [] → Acc g s' [] → Ser g s → Ser g s' → a.legal g s → P s → Eff g s s' a → P s')
    {as : List (Action F L)} {s : State F L} (h : Run g as s) (hd : s.dead = none) :
    Acc g s [] ∧ Ser g s ∧ P s := by
  induction h with
  | nil => exact ⟨init_acc g, init_ser g, h0⟩
  | @snoc as s s' a h1 h2 h3 ih =>
    obtain ⟨i1, i2, i3⟩ := ih (step_cases h3).1
    have ha := step_acc i1 h3 hd
    have he := eff_of_step i1 h3 hd
    have hse := step_ser i1 ha i2 he
    exact ⟨ha, hse, hstep _ _ _ i1 ha i2 hse h2 i3 he⟩

end VS.Pool
