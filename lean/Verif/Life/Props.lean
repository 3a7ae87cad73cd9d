import Verif.Life.Chain

/-!
# C38: filters and the core are freed once, in order, and without deep recursion

`Run threads as s`: the history `as` of user calls and of thread steps, in any interleaving, leads to `s`.
-/

namespace VS.Life

/-- Every history is lawful, see `Allowed`: a free function is called at most once, after the free functions of
all filters that keep a reference to it; the core is deleted once, after `freeCore` and all free functions. -/
theorem C38_lawful {threads : Nat} {as : List Action} {s : State} (h : Run threads as s) : Lawful s.h.trace :=
  run_lawful h

/-- No memory is used after it was freed: no count of a deleted node is touched and the core is not used after it
was deleted. -/
theorem C38_no_use_after_free {threads : Nat} {as : List Action} {s : State} (h : Run threads as s) :
    s.h.ub = false := (run_inv h).1.ub

theorem C38_freed_at_most_once {threads : Nat} {as : List Action} {s : State} (h : Run threads as s) (c : Nat) :
    s.h.trace.count (.freed c) ≤ 1 := (run_inv h).1.freed_once c

/-- When the free function of a filter was called nobody refers to it: not the user, not another filter, not a
call in progress. -/
theorem C38_freed_only_unreferenced {threads : Nat} {as : List Action} {s : State} (h : Run threads as s) {c : Nat}
    (hm : .freed c ∈ s.h.trace) :
    s.h.ext c = 0 ∧ (∀ n, c ∉ (s.h.node n).deps ∧ c ∉ (s.h.node n).data) ∧
    ∀ t ∈ s.ts, ∀ f ∈ t.stack, f.refs c = 0 := by
  have hi := run_inv h
  obtain ⟨h1, h2, h3⟩ := hi.1.unheld (hi.1.freed_place hm).2.1
  refine ⟨h1, h3, ?_⟩
  intro t ht f hf
  have h4 := total_le (f := Thread.sum (Frame.refs c)) ht
  have h5 : f.refs c ≤ t.sum (Frame.refs c) := by
    obtain ⟨l, r, e⟩ := List.append_of_mem hf
    unfold Thread.sum
    rw [e, List.map_append, List.sum_append, List.map_cons, List.sum_cons]
    omega
  omega

/-- Consumers are freed first: when the free function of `d` is called, those of all filters that were ever created
with a reference to `d` in their data have been called. -/
theorem C38_consumers_first {threads : Nat} {as : List Action} {s : State} (h : Run threads as s)
    {past rest : List Event} {d n : Nat} {deps data : List Nat} {f : Bool}
    (he : s.h.trace = past ++ .freed d :: rest) (hm : .created n deps data f ∈ s.h.trace) (hd : d ∈ data) :
    .freed n ∈ past := by
  have hl := run_lawful h
  have h1 := hl past (.freed d) rest he
  rw [he] at hm
  rcases List.mem_append.1 hm with hm | hm
  · exact h1.2.2.2 n deps data f hm hd
  · rcases List.mem_cons.1 hm with hm | hm
    · cases hm
    · -- a filter created later could not have got the reference
      exfalso
      obtain ⟨l, r, e⟩ := List.append_of_mem hm
      have h2 := hl (past ++ .freed d :: l) (.created n deps data f) r (by rw [he, e]; simp)
      exact (h2.2.2 d (Or.inr hd)).2 (by simp)

/-- The same for dependencies, if every filter keeps its own references to the nodes it depends on. -/
theorem C38_dependencies_last {threads : Nat} {as : List Action} {s : State} (h : Run threads as s) (ho : Owns as)
    {past rest : List Event} {d n : Nat} {deps data : List Nat} {f : Bool}
    (he : s.h.trace = past ++ .freed d :: rest) (hm : .created n deps data f ∈ s.h.trace) (hd : d ∈ deps) :
    .freed n ∈ past :=
  C38_consumers_first h he hm (created_owns h ho hm hd)

/-- The deletion of the core is the last thing that happens. -/
theorem C38_core_deleted_last {threads : Nat} {as : List Action} {s : State} (h : Run threads as s)
    {past rest : List Event} (he : s.h.trace = past ++ .coreDeleted :: rest) :
    .coreReleased ∈ past ∧ (∀ n deps data, .created n deps data true ∈ past → .freed n ∈ past) ∧ rest = [] := by
  have hl := run_lawful h
  have h1 := hl past .coreDeleted rest he
  refine ⟨h1.2.1, h1.2.2, ?_⟩
  cases rest with
  | nil => rfl
  | cons e rest =>
    exfalso
    have h2 := hl (past ++ [.coreDeleted]) e rest (by rw [he]; simp)
    cases e with
    | created c deps data f => exact h2.2.1 (List.mem_append.2 (Or.inl h1.2.1))
    | freed c => exact h2.2.1 (List.mem_append.2 (Or.inr (List.mem_singleton.2 rfl)))
    | coreReleased => exact h2 (List.mem_append.2 (Or.inl h1.2.1))
    | coreDeleted => exact h2.1 (List.mem_append.2 (Or.inr (List.mem_singleton.2 rfl)))

/-- Nothing leaks: when the user holds no reference and no call is in progress all filters have been freed, and the
core has been deleted if the user released it. -/
theorem C38_all_freed {threads : Nat} {as : List Action} {s : State} (h : Run threads as s)
    (hq : ∀ t ∈ s.ts, t.stack = []) (he : ∀ c, s.h.ext c = 0) :
    (∀ n deps data, .created n deps data true ∈ s.h.trace → .freed n ∈ s.h.trace) ∧
    (.coreReleased ∈ s.h.trace → .coreDeleted ∈ s.h.trace) := by
  have hi := run_inv h
  have hg := quiet_gone hi hq he
  refine ⟨?_, ?_⟩
  · intro n ds xs hm
    obtain ⟨g1, g2, _, _⟩ := hi.1.made n ds xs true hm
    have g3 := hi.1.freed n
    rw [g2] at g3
    refine List.count_pos_iff.1 ?_
    rw [g3]
    unfold Node.over
    rw [hg n g1]
    simp only [if_true]
    omega
  · intro hr
    have h1 := hi.1.inst
    rw [hi.1.released.1 hr] at h1
    have h2 : s.h.count = 0 := by
      unfold Heap.count
      have : ∀ n < s.h.next, (if (s.h.node n).gone then 0 else 1) = 0 := fun n hn => by rw [hg n hn]; rfl
      generalize s.h.next = k at this ⊢
      induction k with
      | zero => rfl
      | succ k ih =>
        show sumTo _ k + (if (s.h.node k).gone then 0 else 1) = 0
        rw [ih (fun n hn => this n (by omega)), this k (by omega)]
    have h3 := hi.2.1 (by rw [h1, h2]; rfl)
    have h4 := hi.1.deleted
    rw [h3] at h4
    refine List.count_pos_iff.1 ?_
    rw [h4]
    decide

/-- A thread with a call in progress can always go on. -/
theorem C38_never_stuck {s : State} {i : Nat} {t : Thread} (ht : s.ts[i]? = some t) (hne : t.stack ≠ []) :
    ∃ s', s.step (.run i) = some s' := by
  have : ∃ x, t.step s.h = some x := by
    obtain ⟨stack, depth, list⟩ := t
    cases stack with
    | nil => exact absurd rfl hne
    | cons a r =>
      cases a with
      | rel c =>
        simp only [Thread.step]
        split
        · exact ⟨_, rfl⟩
        · split <;> exact ⟨_, rfl⟩
      | dtor c ds =>
        cases ds with
        | cons d ds => exact ⟨_, rfl⟩
        | nil =>
          simp only [Thread.step]
          split <;> exact ⟨_, rfl⟩
      | drain => cases list <;> exact ⟨_, rfl⟩
      | free c ds => cases ds <;> exact ⟨_, rfl⟩
  obtain ⟨⟨h', t'⟩, hx⟩ := this
  refine ⟨⟨h', s.ts.set i t'⟩, ?_⟩
  simp only [State.step]
  rw [ht]
  simp only
  rw [hx]

/-- Is it a step of the core, not a call of the user? -/
def Action.isRun : Action → Bool
  | .run _ => true
  | _ => false

/-- Releasing takes a bounded number of steps: in every history there are at most as many as the calls of the user
account for. -/
theorem C38_bounded {threads : Nat} {as : List Action} {s : State} (h : Run threads as s) :
    (as.filter Action.isRun).length + s.work ≤ (as.map Action.work).sum := by
  induction h with
  | nil =>
    show 0 + (0 + total Thread.work (List.replicate threads _)) ≤ 0
    rw [total_zero (fun t ht => by rw [(List.mem_replicate.1 ht).2]; rfl)]
    exact Nat.le_refl _
  | @snoc as s s' a hr hs ih =>
    rw [List.filter_append, List.length_append, List.map_append, List.sum_append]
    have e1 : (List.map Action.work [a]).sum = a.work := by simp
    rw [e1]
    cases a with
    | run i =>
      have h1 := run_work (run_inv hr) hs
      have e2 : ([Action.run i].filter Action.isRun).length = 1 := rfl
      omega
    | create ds xs f =>
      have h1 := user_work (run_inv hr) hs (fun _ he => by cases he)
      have e2 : ([Action.create ds xs f].filter Action.isRun).length = 0 := rfl
      omega
    | addRef c =>
      have h1 := user_work (run_inv hr) hs (fun _ he => by cases he)
      have e2 : ([Action.addRef c].filter Action.isRun).length = 0 := rfl
      omega
    | drop i c =>
      have h1 := user_work (run_inv hr) hs (fun _ he => by cases he)
      have e2 : ([Action.drop i c].filter Action.isRun).length = 0 := rfl
      omega
    | freeCore =>
      have h1 := user_work (run_inv hr) hs (fun _ he => by cases he)
      have e2 : ([Action.freeCore].filter Action.isRun).length = 0 := rfl
      omega

/-- Every history can be completed by letting the threads go on. -/
theorem C38_completes {threads : Nat} {as : List Action} {s : State} (h : Run threads as s) :
    ∃ rs s', Run threads (as ++ rs) s' ∧ (∀ a ∈ rs, a.isRun = true) ∧ (∀ t ∈ s'.ts, t.stack = []) := by
  generalize hw : s.work = w
  induction w using Nat.strongRecOn generalizing as s with
  | ind w ih =>
    by_cases hq : ∀ t ∈ s.ts, t.stack = []
    · exact ⟨[], s, by rw [List.append_nil]; exact h, fun _ ha => (nomatch ha), hq⟩
    · have : ∃ t ∈ s.ts, t.stack ≠ [] := by
        apply Classical.byContradiction
        intro hn
        exact hq (fun t ht => Classical.byContradiction (fun hx => hn ⟨t, ht, hx⟩))
      obtain ⟨t, ht, hne⟩ := this
      obtain ⟨i, hi⟩ := List.getElem?_of_mem ht
      obtain ⟨s1, hs1⟩ := C38_never_stuck hi hne
      have h1 := run_work (run_inv h) hs1
      obtain ⟨rs, s', g1, g2, g3⟩ := ih s1.work (by omega) (.snoc h hs1) rfl
      refine ⟨.run i :: rs, s', ?_, ?_, g3⟩
      · rw [List.append_assoc] at g1; exact g1
      · intro a ha
        rcases List.mem_cons.1 ha with rfl | ha
        · rfl
        · exact g2 a ha

/-- No deep recursion: if every filter keeps its own references to the nodes it depends on, then releasing chains of
any depth and shape never nests more than four calls (`release`, `~VSNode`, a free function and the loop in
`destroyFilterInstance`). -/
theorem C38_bounded_stack {threads : Nat} {as : List Action} {s : State} (h : Run threads as s) (ho : Owns as) :
    ∀ t ∈ s.ts, t.stack.length ≤ 4 := fun t ht => ((run_flat h ho).shape t ht).length

/-- Without that condition the recursion is as deep as the chain: filters that only declare their dependency are
destroyed recursively. -/
theorem C38_deep_refuted (n : Nat) : ∃ as s, Run 1 as s ∧ ∃ t ∈ s.ts, n < t.stack.length := by
  obtain ⟨as, s, st, hr, hts, hlen, _⟩ := unwind n 0 (Nat.zero_add n) (chain_exists n)
  refine ⟨as, s, hr, _, by rw [hts]; exact List.mem_singleton.2 rfl, ?_⟩
  simp only [List.length_cons]
  omega

/-! ## Examples -/

/-- The state after a list of actions. -/
def play (s : State) : List Action → Option State
  | [] => some s
  | a :: as => (s.step a).bind (fun s' => play s' as)

theorem play_run {threads : Nat} : ∀ {as bs : List Action} {s s' : State}, Run threads bs s → play s as = some s' →
    Run threads (bs ++ as) s'
  | [], bs, s, s', h, hp => by
    injection hp with hp
    subst hp
    rw [List.append_nil]
    exact h
  | a :: as, bs, s, s', h, hp => by
    simp only [play] at hp
    cases hs : s.step a with
    | none => rw [hs] at hp; cases hp
    | some s1 =>
      rw [hs] at hp
      have := play_run (.snoc h hs) hp
      rw [List.append_assoc] at this
      exact this

/-- The trace and the references left. -/
def outcome (as : List Action) : Option (List Event × Nat) :=
  (play (State.init 1) as).map (fun s => (s.h.trace, (s.ts.map (fun t => t.stack.length)).sum))

def runs (n : Nat) : List Action := List.replicate n (.run 0)

/-- A source, a filter on it that keeps a reference, `freeCore`, and then the release of the filter: the filter is
freed first, then the source, then the core. -/
def twoFilters : List Action :=
  [.create [] [] true, .create [0] [0] true, .freeCore, .drop 0 1] ++ runs 12

example : outcome twoFilters = some ([.created 0 [] [] true, .created 1 [0] [0] true, .coreReleased, .freed 1, .freed 0,
    .coreDeleted], 0) := by decide +kernel

example : Owns twoFilters := by
  intro deps data f hm
  simp only [twoFilters, runs, List.mem_append, List.mem_cons, List.not_mem_nil, or_false, List.mem_replicate] at hm
  rcases hm with (hm | hm | hm | hm) | ⟨_, hm⟩
  · injection hm with e1 e2 e3; subst e1; intro d hd; cases hd
  · injection hm with e1 e2 e3; subst e1 e2; exact fun d hd => hd
  · cases hm
  · cases hm
  · cases hm

/-- A filter that declares a dependency without keeping a reference is freed after it: the claim that no filter is
freed before its consumers fails for such filters. -/
def declaredOnly : List Action :=
  [.create [] [] true, .create [0] [] true, .drop 0 0, .run 0, .drop 0 1] ++ runs 11

theorem C38_order_refuted : ∃ as s past rest, Run 1 as s ∧ s.h.trace = past ++ .freed 0 :: rest ∧
    .created 1 [0] [] true ∈ s.h.trace ∧ .freed 1 ∈ rest := by
  have h : outcome declaredOnly = some ([.created 0 [] [] true, .created 1 [0] [] true, .freed 0, .freed 1], 0) := by
    decide +kernel
  unfold outcome at h
  cases hp : play (State.init 1) declaredOnly with
  | none => rw [hp] at h; cases h
  | some s =>
    rw [hp] at h
    injection h with h
    injection h with h1 _
    refine ⟨_, s, [.created 0 [] [] true, .created 1 [0] [] true], [.freed 1], play_run .nil hp, h1, ?_, ?_⟩
    · rw [h1]; simp
    · simp

end VS.Life
