import Verif.Pool.AccStep

/-!
# What the steps change
-/

namespace VS.Pool

variable {F L : Type}

/-- What an answer changes in a computation that gets it `n` times. -/
structure Gets (x y : Ctx F L) (k : Key) (r : Except String F) (n : Nat) : Prop where
  same : Same x y
  pending : y.pending = x.pending - n
  avail : y.avail = x.avail ++ (match r with
    | .ok f => List.replicate n (k, f)
    | .error _ => [])
  error : y.error = (match r with
    | .ok _ => x.error
    | .error m => if n = 0 then x.error else some (x.error.getD m))

theorem Gets.zero {x y : Ctx F L} {k : Key} {r : Except String F} (h : Gets x y k r 0) : y = x := by
  obtain ⟨⟨h1, h2, h3, h4, h5, h6, h7⟩, h8, h9, h10⟩ := h
  have h9' : y.avail = x.avail := by rw [h9]; cases r <;> simp
  have h10' : y.error = x.error := by rw [h10]; cases r <;> simp
  rw [Nat.sub_zero] at h8
  clear h9 h10
  cases x; cases y
  simp_all

theorem gets_refl (x : Ctx F L) (k : Key) (r : Except String F) : Gets x x k r 0 :=
  ⟨Same.refl _, rfl, by cases r <;> simp, by cases r <;> simp⟩

theorem Gets.step {x y z : Ctx F L} {k : Key} {r : Except String F} {n : Nat}
    (h : Gets x y k r 1) (h' : Gets y z k r n) : Gets x z k r (n + 1) := by
  refine ⟨h.same.trans h'.same, by rw [h'.pending, h.pending]; omega, ?_, ?_⟩
  · rw [h'.avail, h.avail]
    cases r with
    | ok f => simp [List.replicate_succ]
    | error m => simp
  · rw [h'.error, h.error]
    cases r with
    | ok f => rfl
    | error m => by_cases hn : n = 0 <;> simp [hn]

theorem notifyOne_gets (s : State F L) (k : Key) (r : Except String F) (c x : Nat) :
    Gets (s.ctx x) ((s.notifyOne (fun y => y.answer k r) c).ctx x) k r (if x = c then 1 else 0) := by
  have e : (s.notifyOne (fun y => y.answer k r) c).ctx =
      upd s.ctx c { (s.ctx c).answer k r with pending := ((s.ctx c).answer k r).pending - 1 } := by
    unfold State.notifyOne
    simp only
    split <;> rfl
  rw [e]
  by_cases h : x = c
  · subst h
    rw [upd_self, if_pos rfl]
    have hk := (answer_keeps k r (s.ctx x))
    refine ⟨⟨hk.1.1, hk.1.2, hk.1.3, hk.1.4, hk.1.5, hk.1.6, hk.1.7⟩, ?_, ?_, ?_⟩
    · show _ - 1 = _
      rw [hk.2]
    · cases r <;> simp [Ctx.answer, Ctx.addFrame, Ctx.setError]
    · cases r <;> simp [Ctx.answer, Ctx.addFrame, Ctx.setError]
  · rw [upd_ne _ _ h, if_neg h]
    exact gets_refl _ _ _

theorem notifyAll_gets (k : Key) (r : Except String F) (x : Nat) : ∀ (l : List Nat) (s : State F L),
    Gets (s.ctx x) ((s.notifyAll (fun y => y.answer k r) l).ctx x) k r (l.count x)
  | [], s => gets_refl _ _ _
  | c :: t, s => by
    show Gets _ (((s.notifyOne _ c).notifyAll _ t).ctx x) k r _
    have h1 := notifyOne_gets s k r c x
    have h2 := notifyAll_gets k r x t (s.notifyOne (fun y => y.answer k r) c)
    by_cases e : x = c
    · subst e
      rw [if_pos rfl] at h1
      rw [List.count_cons_self]
      exact h1.step h2
    · rw [if_neg e] at h1
      rw [List.count_cons_of_ne (fun a => e a.symm)]
      rw [h1.zero] at h2
      exact h2

/-- The parts of the state that answers do not touch. -/
structure Rest (s s' : State F L) : Prop where
  next : s'.next = s.next
  alt : s'.alt = s.alt
  running : s'.running = s.running
  mutex : s'.mutex = s.mutex
  serialFrame : s'.serialFrame = s.serialFrame
  owner : s'.owner = s.owner
  produced : s'.produced = s.produced
  flush : s'.flush = s.flush
  counter : s'.counter = s.counter
  dead : s'.dead = s.dead

theorem Rest.refl (s : State F L) : Rest s s := ⟨rfl, rfl, rfl, rfl, rfl, rfl, rfl, rfl, rfl, rfl⟩

theorem Rest.trans {s s' s'' : State F L} (h : Rest s s') (h' : Rest s' s'') : Rest s s'' :=
  ⟨h'.1.trans h.1, h'.2.trans h.2, h'.3.trans h.3, h'.4.trans h.4, h'.5.trans h.5, h'.6.trans h.6,
    h'.7.trans h.7, h'.8.trans h.8, h'.9.trans h.9, h'.10.trans h.10⟩

theorem notifyOne_rest (s : State F L) (f : Ctx F L → Ctx F L) (c : Nat) :
    Rest s (s.notifyOne f c) ∧ (s.notifyOne f c).finished = s.finished ∧
    (s.notifyOne f c).returning = s.returning ∧ (s.notifyOne f c).all = s.all ∧
    (s.notifyOne f c).trace = s.trace := by
  unfold State.notifyOne
  simp only
  split <;> exact ⟨⟨rfl, rfl, rfl, rfl, rfl, rfl, rfl, rfl, rfl, rfl⟩, rfl, rfl, rfl, rfl⟩

theorem notifyAll_rest (f : Ctx F L → Ctx F L) : ∀ (l : List Nat) (s : State F L),
    Rest s (s.notifyAll f l) ∧ (s.notifyAll f l).finished = s.finished ∧
    (s.notifyAll f l).returning = s.returning ∧ (s.notifyAll f l).all = s.all ∧
    (s.notifyAll f l).trace = s.trace
  | [], s => ⟨Rest.refl _, rfl, rfl, rfl, rfl⟩
  | c :: t, s => by
    obtain ⟨h1, h2, h3, h4, h5⟩ := notifyOne_rest s f c
    obtain ⟨i1, i2, i3, i4, i5⟩ := notifyAll_rest f t (s.notifyOne f c)
    exact ⟨h1.trans i1, i2.trans h2, i3.trans h3, i4.trans h4, i5.trans h5⟩

theorem notifyOne_tasks (s : State F L) (k : Key) (r : Except String F) (c : Nat) :
    (s.notifyOne (fun y => y.answer k r) c).tasks =
      if (s.ctx c).pending - 1 = 0 then c :: s.tasks else s.tasks := by
  have hk := (answer_keeps k r (s.ctx c)).2
  simp only at hk
  unfold State.notifyOne
  simp only [hk]
  split <;> rfl

theorem notifyAll_tasks (k : Key) (r : Except String F) : ∀ (l : List Nat) (s : State F L),
    (∀ x, l.count x ≤ (s.ctx x).pending) → ∀ x,
    x ∈ (s.notifyAll (fun y => y.answer k r) l).tasks ↔
      x ∈ s.tasks ∨ (x ∈ l ∧ (s.ctx x).pending = l.count x)
  | [], s, _, x => by simp [State.notifyAll]
  | c :: t, s, h, x => by
    show x ∈ ((s.notifyOne _ c).notifyAll _ t).tasks ↔ _
    have hp : ∀ y, ((s.notifyOne (fun y => y.answer k r) c).ctx y).pending =
        (s.ctx y).pending - (if y = c then 1 else 0) := fun y => (notifyOne_gets s k r c y).pending
    have hle : ∀ y, t.count y ≤ ((s.notifyOne (fun y => y.answer k r) c).ctx y).pending := by
      intro y
      rw [hp]
      have := h y
      rw [List.count_cons] at this
      by_cases e : y = c
      · subst e; simp at this ⊢; omega
      · rw [if_neg e]
        rw [if_neg (by simpa using fun a : c = y => e a.symm)] at this
        omega
    rw [notifyAll_tasks k r t _ hle x, hp, notifyOne_tasks]
    have hx := h x
    rw [List.count_cons] at hx
    rw [List.mem_cons, List.count_cons]
    by_cases e : x = c
    · subst e
      simp only [beq_self_eq_true, if_true, true_or, true_and] at hx ⊢
      constructor
      · rintro (h1 | ⟨h1, h2⟩)
        · split at h1
          · next h0 =>
            rcases List.mem_cons.1 h1 with _ | h1
            · right; omega
            · exact .inl h1
          · exact .inl h1
        · right; omega
      · rintro (h1 | h1)
        · left; split
          · exact List.mem_cons_of_mem _ h1
          · exact h1
        · by_cases h0 : x ∈ t
          · right; exact ⟨h0, by omega⟩
          · left
            have : t.count x = 0 := List.count_eq_zero.2 h0
            rw [if_pos (by omega)]
            exact List.mem_cons_self ..
    · have e' : (c == x) = false := by simpa using fun a : c = x => e a.symm
      simp only [e', Bool.false_eq_true, if_false, Nat.add_zero, Nat.sub_zero, e, false_or]
      have : x ∈ (if (s.ctx c).pending - 1 = 0 then c :: s.tasks else s.tasks) ↔ x ∈ s.tasks := by
        split
        · rw [List.mem_cons]; simp [e]
        · rfl
      rw [this]

/-- A computation ends. -/
structure EndEff (s s' : State F L) (c : Nat) (r : Except String F) : Prop where
  rest : Rest s s'
  trace : s'.trace = s.trace ++ [.finish c (s.ctx c).key r]
  gets : ∀ x, Gets (s.ctx x) (s'.ctx x) (s.ctx c).key r ((s.ctx c).notify.count x)
  tasks : ∀ x, x ∈ s'.tasks ↔ (x ∈ s.tasks ∧ x ≠ c) ∨ (x ∈ (s.ctx c).notify ∧ (s'.ctx x).pending = 0)
  finished : ∀ p, p ∈ s'.finished ↔ p ∈ s.finished ∧ p.1 ≠ c
  returning : s'.returning = (if (s.ctx c).external then [(c, r)] else []) ++ s.returning
  all : ∀ e, e ∈ s'.all ↔ e ∈ s.all ∧ e.2 ≠ c
  work : c ∈ s.tasks ∨ c ∈ s.finished.map Prod.fst

theorem mem_sort {s : State F L} {x : Nat} : x ∈ s.sort.tasks ↔ x ∈ s.tasks :=
  (sortBy_perm _ _).mem_iff

theorem endCtx_eff {g : Graph F L} {s s1 : State F L} {c : Nat} (h : Acc g s []) (ht : Taken s s1 c)
    (hr : Rest s s1) (htask : ∀ x, x ∈ s1.tasks ↔ x ∈ s.tasks ∧ x ≠ c)
    (hfin : ∀ p, p ∈ s1.finished ↔ p ∈ s.finished ∧ p.1 ≠ c) (hret : s1.returning = s.returning)
    (hw : c ∈ s.tasks ∨ c ∈ s.finished.map Prod.fst)
    (r : Except String F) : EndEff s (s1.endCtx c r) c r := by
  have hcl : c ∈ s.lists := ht.lists.mem_iff.2 (List.mem_cons_self ..)
  generalize hs' : s1.endCtx c r = s'
  -- the parts that do not depend on sorting
  have key : ∃ s2 : State F L, s2 = (s1.leave c r).notifyAll (fun y => y.answer (s.ctx c).key r) (s.ctx c).notify ∧
      s'.ctx = s2.ctx ∧ (∀ x, x ∈ s'.tasks ↔ x ∈ s2.tasks) ∧ Rest s2 s' ∧ s'.finished = s2.finished ∧
      s'.returning = s2.returning ∧ s'.all = s2.all ∧ s'.trace = s2.trace ++ [.finish c (s.ctx c).key r] := by
    rw [← hs']
    unfold State.endCtx
    simp only [ht.ctx]
    refine ⟨_, rfl, ?_⟩
    split
    · exact ⟨rfl, fun _ => Iff.rfl, ⟨rfl, rfl, rfl, rfl, rfl, rfl, rfl, rfl, rfl, rfl⟩, rfl, rfl, rfl, rfl⟩
    · exact ⟨rfl, fun _ => mem_sort, ⟨rfl, rfl, rfl, rfl, rfl, rfl, rfl, rfl, rfl, rfl⟩, rfl, rfl, rfl, rfl⟩
  obtain ⟨s2, hs2, k1, k2, k3, k4, k5, k6, k7⟩ := key
  clear hs'
  have hleave : (s1.leave c r).ctx = s.ctx ∧ (s1.leave c r).tasks = s1.tasks ∧ Rest s1 (s1.leave c r) ∧
      (s1.leave c r).finished = s1.finished ∧ (s1.leave c r).trace = s.trace ∧
      (s1.leave c r).returning = (if (s.ctx c).external then [(c, r)] else []) ++ s.returning ∧
      (s1.leave c r).all = (if (s.ctx c).external then s.all else s.all.filter (fun e => e.1 ≠ (s.ctx c).key)) := by
    unfold State.leave
    rw [ht.ctx]
    split
    · exact ⟨rfl, rfl, ⟨rfl, rfl, rfl, rfl, rfl, rfl, rfl, rfl, rfl, rfl⟩, rfl, ht.trace, by rw [← hret]; rfl, ht.all⟩
    · exact ⟨rfl, rfl, ⟨rfl, rfl, rfl, rfl, rfl, rfl, rfl, rfl, rfl, rfl⟩, rfl, ht.trace, hret, by rw [← ht.all]⟩
  generalize hl : s1.leave c r = sl at *
  obtain ⟨l1, l2, l3, l4, l5, l6, l7⟩ := hleave
  obtain ⟨n1, n2, n3, n4, n5⟩ := notifyAll_rest (fun y => y.answer (s.ctx c).key r) (s.ctx c).notify sl
  rw [← hs2] at n1 n2 n3 n4 n5
  have hg : ∀ x, Gets (s.ctx x) (s'.ctx x) (s.ctx c).key r ((s.ctx c).notify.count x) := by
    intro x
    have := notifyAll_gets (s.ctx c).key r x (s.ctx c).notify sl
    rw [← hs2, ← k1, l1] at this
    exact this
  have hcount : ∀ x, (s.ctx c).notify.count x ≤ (s.ctx x).pending := by
    intro x
    by_cases hx : x ∈ (s.ctx c).notify
    · have hext : (s.ctx c).external = false := by
        cases he : (s.ctx c).external with
        | false => rfl
        | true => rw [h.ext_notify c he] at hx; cases hx
      have hm := h.mem_all c hext (.inl hcl)
      have hb := h.bal x
      rw [hb]
      have : (s.ctx c).notify.count x ≤ owed s.ctx s.all x := by
        unfold owed
        have hsum : ∀ (l : List (Key × Nat)), ((s.ctx c).key, c) ∈ l →
            (s.ctx c).notify.count x ≤ (l.map fun e => (s.ctx e.2).notify.count x).sum := by
          intro l
          induction l with
          | nil => intro hm; cases hm
          | cons a t ih =>
            intro hm
            rw [List.map_cons, List.sum_cons]
            rcases List.mem_cons.1 hm with e | hm
            · rw [← e]; exact Nat.le_add_right _ _
            · have := ih hm; omega
        exact hsum _ hm
      omega
    · rw [List.count_eq_zero.2 hx]; omega
  refine ⟨hr.trans (l3.trans (n1.trans k3)), ?_, hg, ?_, ?_, ?_, ?_, hw⟩
  · rw [k7, n5, l5]
  · intro x
    rw [k2, hs2, notifyAll_tasks _ _ _ _ (by rw [l1]; exact hcount), l1, l2, htask, (hg x).pending]
    have := hcount x
    constructor
    · rintro (h1 | ⟨h1, h2⟩)
      · exact .inl h1
      · exact .inr ⟨h1, by omega⟩
    · rintro (h1 | ⟨h1, h2⟩)
      · exact .inl h1
      · exact .inr ⟨h1, by omega⟩
  · intro p; rw [k4, n2, l4]; exact hfin p
  · rw [k5, n3, l6]
  · intro e
    rw [k6, n4, l7]
    cases he : (s.ctx c).external with
    | true =>
      rw [if_pos rfl]
      constructor
      · intro hm
        refine ⟨hm, fun ec => ?_⟩
        have := (h.all_ok e hm).2.2
        rw [ec, he] at this; cases this
      · exact fun hm => hm.1
    | false =>
      rw [if_neg (by simp), List.mem_filter]
      have hm := h.mem_all c he (.inl hcl)
      constructor
      · rintro ⟨h1, h2⟩
        refine ⟨h1, fun ec => ?_⟩
        have := (h.all_ok e h1).2.1
        rw [ec] at this
        simp [this] at h2
      · rintro ⟨h1, h2⟩
        refine ⟨h1, ?_⟩
        simp only [ne_eq, decide_not, Bool.not_eq_eq_eq_not, Bool.not_true, decide_eq_false_iff_not]
        intro ek
        exact h2 (key_inj h.keys (k := (s.ctx c).key) (by rw [← ek]; exact h1) hm)

end VS.Pool
