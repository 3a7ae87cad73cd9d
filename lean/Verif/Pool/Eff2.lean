import Verif.Pool.Eff

/-!
# What the other steps change
-/

namespace VS.Pool

variable {F L : Type}

/-- A computation that more computations wait for. -/
structure Grown (x y : Ctx F L) (c : Nat) : Prop where
  key : y.key = x.key
  pending : y.pending = x.pending
  error : y.error = x.error
  first : y.first = x.first
  external : y.external = x.external
  reqs : y.reqs = x.reqs
  avail : y.avail = x.avail
  loc : y.loc = x.loc
  notify : ∃ n, y.notify = x.notify ++ List.replicate n c

theorem Grown.refl (x : Ctx F L) (c : Nat) : Grown x x c :=
  ⟨rfl, rfl, rfl, rfl, rfl, rfl, rfl, rfl, 0, by simp⟩

theorem Grown.trans {x y z : Ctx F L} {c : Nat} (h : Grown x y c) (h' : Grown y z c) : Grown x z c := by
  obtain ⟨n, hn⟩ := h.notify
  obtain ⟨m, hm⟩ := h'.notify
  exact ⟨h'.1.trans h.1, h'.2.trans h.2, h'.3.trans h.3, h'.4.trans h.4, h'.5.trans h.5, h'.6.trans h.6,
    h'.7.trans h.7, h'.8.trans h.8, n + m, by
      rw [hm, hn, List.append_assoc, List.append_cancel_left_eq, ← List.replicate_append_replicate]⟩

theorem Grown.mem {x y : Ctx F L} {c d : Nat} (h : Grown x y c) (hm : d ∈ x.notify) : d ∈ y.notify := by
  obtain ⟨n, hn⟩ := h.notify
  rw [hn]; exact List.mem_append_left _ hm

theorem Grown.of_mem {x y : Ctx F L} {c d : Nat} (h : Grown x y c) (hm : d ∈ y.notify) (hd : d ≠ c) :
    d ∈ x.notify := by
  obtain ⟨n, hn⟩ := h.notify
  rw [hn] at hm
  rcases List.mem_append.1 hm with hm | hm
  · exact hm
  · exact absurd (List.mem_replicate.1 hm).2 hd

/-- A computation that was just created. -/
structure Fresh (g : Graph F L) (y : Ctx F L) (c : Nat) : Prop where
  pending : y.pending = 0
  error : y.error = none
  first : y.first = true
  external : y.external = false
  reqs : y.reqs = []
  avail : y.avail = []
  loc : y.loc = g.init
  notify : ∀ d ∈ y.notify, d = c

/-- Requests are made. -/
structure AttEff (g : Graph F L) (s s' : State F L) (c : Nat) (ks : List Key) : Prop where
  next : s.next ≤ s'.next
  alt : s'.alt = s.alt
  running : s'.running = s.running
  finished : s'.finished = s.finished
  returning : s'.returning = s.returning
  mutex : s'.mutex = s.mutex
  serialFrame : s'.serialFrame = s.serialFrame
  owner : s'.owner = s.owner
  produced : s'.produced = s.produced
  flush : s'.flush = s.flush
  dead : s'.dead = s.dead
  trace : ∃ es, s'.trace = s.trace ++ es ∧
    (∀ e ∈ es, ∃ q d, e = .attach c q d ∧ q ∈ ks ∧ (q, d) ∈ s'.all ∧ c ∈ (s'.ctx d).notify) ∧
    (∀ q ∈ ks, ∃ d, .attach c q d ∈ es) ∧
    (∀ q d, (q, d) ∈ s'.all → c ∈ (s'.ctx d).notify →
      ((q, d) ∈ s.all ∧ c ∈ (s.ctx d).notify) ∨ .attach c q d ∈ es)
  old : ∀ x < s.next, Grown (s.ctx x) (s'.ctx x) c
  new : ∀ x, s.next ≤ x → x < s'.next → Fresh g (s'.ctx x) c ∧ (s'.ctx x).key ∈ ks ∧ ((s'.ctx x).key, x) ∈ s'.all
  tasks : ∀ x, x ∈ s'.tasks ↔ x ∈ s.tasks ∨ (s.next ≤ x ∧ x < s'.next)
  sub : ∀ e ∈ s.all, e ∈ s'.all
  all : ∀ e ∈ s'.all, e ∈ s.all ∨ (s.next ≤ e.2 ∧ e.2 < s'.next)

theorem attach_eff {g : Graph F L} {s : State F L} (c : Nat) (k : Key) (hlt : ∀ e ∈ s.all, e.2 < s.next)
    (hkey : ∀ e ∈ s.all, (s.ctx e.2).key = e.1) :
    AttEff g s (s.attach g c k) c [k] := by
  unfold State.attach
  cases hk : s.all.lookup k with
  | some d =>
    have hm : (k, d) ∈ s.all := lookup_some hk
    have hd : d < s.next := hlt _ hm
    refine ⟨Nat.le_refl _, rfl, rfl, rfl, rfl, rfl, rfl, rfl, rfl, rfl, rfl, ⟨[.attach c k d], rfl, ?_, ?_, ?_⟩, ?_, ?_, ?_,
      fun _ h => h, fun _ h => .inl h⟩
    · intro e he
      refine ⟨k, d, List.mem_singleton.1 he, List.mem_singleton.2 rfl, hm, ?_⟩
      show c ∈ (upd s.ctx d _ d).notify
      rw [upd_self]
      exact List.mem_append_right _ (List.mem_singleton.2 rfl)
    · intro q hq
      rw [List.mem_singleton.1 hq]
      exact ⟨d, List.mem_singleton.2 rfl⟩
    · intro q x hx1 hx2
      have hx2' : c ∈ (upd s.ctx d _ x).notify := hx2
      by_cases e : x = d
      · subst e
        right
        have h1 := hkey _ hx1
        have h2 := hkey _ hm
        simp only at h1 h2
        rw [← h1, h2]
        exact List.mem_singleton.2 rfl
      · rw [upd_ne _ _ e] at hx2'
        exact .inl ⟨hx1, hx2'⟩
    · intro x _
      show Grown (s.ctx x) (upd s.ctx d _ x) c
      by_cases e : x = d
      · subst e
        rw [upd_self]
        exact ⟨rfl, rfl, rfl, rfl, rfl, rfl, rfl, rfl, 1, rfl⟩
      · rw [upd_ne _ _ e]; exact Grown.refl _ _
    · intro x h1 h2
      have h2' : x < s.next := h2
      omega
    · intro x
      show x ∈ s.tasks ↔ x ∈ s.tasks ∨ (s.next ≤ x ∧ x < s.next)
      constructor
      · exact .inl
      · rintro (h | h)
        · exact h
        · omega
  | none =>
    have hself : ∀ (y : Ctx F L), upd s.ctx s.next y s.next = y := fun y => upd_self ..
    refine ⟨Nat.le_succ _, rfl, rfl, rfl, rfl, rfl, rfl, rfl, rfl, rfl, rfl,
      ⟨[.attach c k s.next], rfl, ?_, ?_, ?_⟩, ?_, ?_, ?_, fun _ h => List.mem_cons_of_mem _ h, ?_⟩
    · intro e he
      refine ⟨k, s.next, List.mem_singleton.1 he, List.mem_singleton.2 rfl, List.mem_cons_self .., ?_⟩
      show c ∈ (upd s.ctx s.next _ s.next).notify
      rw [upd_self]
      exact List.mem_singleton.2 rfl
    · intro q hq
      rw [List.mem_singleton.1 hq]
      exact ⟨s.next, List.mem_singleton.2 rfl⟩
    · intro q x hx1 hx2
      have hx2' : c ∈ (upd s.ctx s.next _ x).notify := hx2
      rcases List.mem_cons.1 hx1 with h1 | h1
      · right
        injection h1 with e1 e2
        rw [e1, e2]
        exact List.mem_singleton.2 rfl
      · rw [upd_ne _ _ (Nat.ne_of_lt (hlt _ h1))] at hx2'
        exact .inl ⟨h1, hx2'⟩
    · intro x hx
      show Grown (s.ctx x) (upd s.ctx s.next _ x) c
      rw [upd_ne _ _ (Nat.ne_of_lt hx)]; exact Grown.refl _ _
    · intro x h1 h2
      have h2' : x < s.next + 1 := h2
      have e : x = s.next := by omega
      subst e
      show Fresh g (upd s.ctx s.next _ s.next) c ∧ (upd s.ctx s.next _ s.next).key ∈ [k] ∧
        ((upd s.ctx s.next _ s.next).key, s.next) ∈ (k, s.next) :: s.all
      rw [upd_self]
      exact ⟨⟨rfl, rfl, rfl, rfl, rfl, rfl, rfl, fun d hd => List.mem_singleton.1 hd⟩, List.mem_singleton.2 rfl,
        List.mem_cons_self ..⟩
    · intro x
      show x ∈ s.next :: s.tasks ↔ x ∈ s.tasks ∨ (s.next ≤ x ∧ x < s.next + 1)
      rw [List.mem_cons]
      constructor
      · rintro (h | h)
        · right; omega
        · exact .inl h
      · rintro (h | h)
        · exact .inr h
        · left; omega
    · intro e he
      rcases List.mem_cons.1 he with h | h
      · right
        rw [h]
        exact ⟨Nat.le_refl _, Nat.lt_succ_self _⟩
      · exact .inl h

theorem AttEff.trans {g : Graph F L} {s s' s'' : State F L} {c : Nat} {k l : List Key}
    (h : AttEff g s s' c k) (h' : AttEff g s' s'' c l) (hlt : ∀ e ∈ s'.all, e.2 < s'.next) :
    AttEff g s s'' c (k ++ l) := by
  obtain ⟨e1, t1, p1, q1, r1⟩ := h.trace
  obtain ⟨e2, t2, p2, q2, r2⟩ := h'.trace
  have hn := h.next
  have hn' := h'.next
  refine ⟨Nat.le_trans h.next h'.next, h'.alt.trans h.alt, h'.running.trans h.running,
    h'.finished.trans h.finished, h'.returning.trans h.returning, h'.mutex.trans h.mutex,
    h'.serialFrame.trans h.serialFrame, h'.owner.trans h.owner, h'.produced.trans h.produced,
    h'.flush.trans h.flush, h'.dead.trans h.dead,
    ⟨e1 ++ e2, by rw [t2, t1, List.append_assoc], ?_, ?_, ?_⟩, ?_, ?_, ?_, fun e he => h'.sub e (h.sub e he), ?_⟩
  · intro e he
    rcases List.mem_append.1 he with he | he
    · obtain ⟨q, d, h1, h2, h3, h4⟩ := p1 e he
      exact ⟨q, d, h1, List.mem_append_left _ h2, h'.sub _ h3, (h'.old d (hlt _ h3)).mem h4⟩
    · obtain ⟨q, d, h1, h2, h3, h4⟩ := p2 e he
      exact ⟨q, d, h1, List.mem_append_right _ h2, h3, h4⟩
  · intro q hq
    rcases List.mem_append.1 hq with hq | hq
    · obtain ⟨d, hd⟩ := q1 q hq; exact ⟨d, List.mem_append_left _ hd⟩
    · obtain ⟨d, hd⟩ := q2 q hq; exact ⟨d, List.mem_append_right _ hd⟩
  · intro q d hd1 hd2
    rcases r2 q d hd1 hd2 with ⟨h3, h4⟩ | h3
    · rcases r1 q d h3 h4 with h5 | h5
      · exact .inl h5
      · exact .inr (List.mem_append_left _ h5)
    · exact .inr (List.mem_append_right _ h3)
  · intro x hx
    exact (h.old x hx).trans (h'.old x (by omega))
  · intro x h1 h2
    by_cases hx : x < s'.next
    · obtain ⟨f1, f2, f3⟩ := h.new x h1 hx
      have gr := h'.old x hx
      refine ⟨⟨gr.pending.trans f1.pending, gr.error.trans f1.error, gr.first.trans f1.first,
        gr.external.trans f1.external, gr.reqs.trans f1.reqs, gr.avail.trans f1.avail, gr.loc.trans f1.loc, ?_⟩,
        by rw [gr.key]; exact List.mem_append_left _ f2, by rw [gr.key]; exact h'.sub _ f3⟩
      intro d hd
      by_cases e : d = c
      · exact e
      · exact f1.notify d (gr.of_mem hd e)
    · obtain ⟨f1, f2, f3⟩ := h'.new x (by omega) h2
      exact ⟨f1, List.mem_append_right _ f2, f3⟩
  · intro x
    rw [h'.tasks, h.tasks]
    constructor
    · rintro ((h1 | h1) | h1)
      · exact .inl h1
      · right; omega
      · right; omega
    · rintro (h1 | h1)
      · exact .inl (.inl h1)
      · by_cases hx : x < s'.next
        · left; right; omega
        · right; omega
  · intro e he
    rcases h'.all e he with h1 | h1
    · rcases h.all e h1 with h2 | h2
      · exact .inl h2
      · right; omega
    · right; omega

theorem attach_lt {g : Graph F L} {s s' : State F L} {c : Nat} {ks : List Key} (h : AttEff g s s' c ks)
    (hlt : ∀ e ∈ s.all, e.2 < s.next) : ∀ e ∈ s'.all, e.2 < s'.next := by
  intro e he
  rcases h.all e he with h1 | h1
  · exact Nat.lt_of_lt_of_le (hlt e h1) h.next
  · exact h1.2

theorem attach_key {g : Graph F L} {s s' : State F L} {c : Nat} {k : Key} (h : AttEff g s s' c [k])
    (hs : s' = s.attach g c k) (hlt : ∀ e ∈ s.all, e.2 < s.next) (hkey : ∀ e ∈ s.all, (s.ctx e.2).key = e.1) :
    ∀ e ∈ s'.all, (s'.ctx e.2).key = e.1 := by
  intro e he
  by_cases hx : e.2 < s.next
  · rcases h.all e he with h1 | h1
    · rw [(h.old _ hx).key]; exact hkey e h1
    · omega
  · subst hs
    unfold State.attach at he ⊢
    cases hk : s.all.lookup k with
    | some d =>
      rw [hk] at he
      exact absurd (hlt e he) hx
    | none =>
      rw [hk] at he
      simp only at he ⊢
      rcases List.mem_cons.1 he with h1 | h1
      · rw [h1]
        show (upd s.ctx s.next _ s.next).key = k
        rw [upd_self]
        rfl
      · exact absurd (hlt e h1) hx

theorem AttEff.refl (g : Graph F L) (s : State F L) (c : Nat) : AttEff g s s c [] := by
  refine ⟨Nat.le_refl _, rfl, rfl, rfl, rfl, rfl, rfl, rfl, rfl, rfl, rfl,
    ⟨[], by simp, (fun e he => nomatch he), (fun e he => nomatch he), fun _ _ h1 h2 => .inl ⟨h1, h2⟩⟩, fun x _ => Grown.refl _ _, ?_, ?_,
    fun _ h => h, fun _ h => .inl h⟩
  · intro x h1 h2; omega
  · intro x
    constructor
    · exact .inl
    · rintro (h | h)
      · exact h
      · omega

theorem attachAll_eff {g : Graph F L} (c : Nat) : ∀ (ks : List Key) (s : State F L),
    (∀ e ∈ s.all, e.2 < s.next) → (∀ e ∈ s.all, (s.ctx e.2).key = e.1) → AttEff g s (s.attachAll g c ks) c ks
  | [], s, _, _ => AttEff.refl g s c
  | k :: t, s, h, hk => by
    have h1 := attach_eff (g := g) c k h hk
    exact h1.trans (attachAll_eff c t _ (attach_lt h1 h) (attach_key h1 rfl h hk)) (attach_lt h1 h)

/-- A computation begins to wait. -/
structure WaitEff (g : Graph F L) (s s' : State F L) (c : Nat) : Prop where
  mem : (c, none) ∈ s.finished
  error : (s.ctx c).error = none
  reqs : (s.ctx c).reqs ≠ []
  nonneg : ∀ k ∈ (s.ctx c).reqs, 0 ≤ k.2
  next : s.next ≤ s'.next
  alt : s'.alt = s.alt
  running : s'.running = s.running
  finished : ∀ p, p ∈ s'.finished ↔ p ∈ s.finished ∧ p.1 ≠ c
  returning : s'.returning = s.returning
  mutex : s'.mutex = s.mutex
  serialFrame : s'.serialFrame = s.serialFrame
  owner : s'.owner = s.owner
  produced : s'.produced = s.produced
  flush : s'.flush = s.flush
  trace : ∃ es, s'.trace = s.trace ++ es ∧
    (∀ e ∈ es, ∃ q d, e = .attach c q d ∧ q ∈ (s.ctx c).reqs ∧ (q, d) ∈ s'.all ∧ c ∈ (s'.ctx d).notify) ∧
    (∀ q ∈ (s.ctx c).reqs, ∃ d, .attach c q d ∈ es) ∧
    (∀ q d, (q, d) ∈ s'.all → c ∈ (s'.ctx d).notify → .attach c q d ∈ es)
  self : Grown (s.ctx c).wait (s'.ctx c) c
  old : ∀ x < s.next, x ≠ c → Grown (s.ctx x) (s'.ctx x) c
  new : ∀ x, s.next ≤ x → x < s'.next →
    Fresh g (s'.ctx x) c ∧ (s'.ctx x).key ∈ (s.ctx c).reqs ∧ ((s'.ctx x).key, x) ∈ s'.all
  tasks : ∀ x, x ∈ s'.tasks ↔ x ∈ s.tasks ∨ (s.next ≤ x ∧ x < s'.next)
  sub : ∀ e ∈ s.all, e ∈ s'.all
  all : ∀ e ∈ s'.all, e ∈ s.all ∨ (s.next ≤ e.2 ∧ e.2 < s'.next)

/-- A filter is called. -/
structure CallEff (g : Graph F L) (s s' : State F L) (c : Nat) (serial : Bool) : Prop where
  mem : c ∈ s.tasks
  useS : serial = useSerial (g.mode (s.ctx c).key.1) (s.ctx c).first
  free : serial = true → s.mutex (s.ctx c).key.1 = false ∧
    (g.mode (s.ctx c).key.1 = .frameState → s.serialFrame (s.ctx c).key.1 = -1 ∨ s.owner (s.ctx c).key.1 = some c)
  next : s'.next = s.next
  alt : s'.alt = s.alt
  running : s'.running = ⟨c, serial, (s.ctx c).reason⟩ :: s.running
  finished : s'.finished = s.finished
  returning : s'.returning = s.returning
  all : s'.all = s.all
  produced : s'.produced = s.produced
  flush : s'.flush = s.flush
  trace : s'.trace = s.trace ++ [.call c (s.ctx c).key (s.ctx c).reason (s.ctx c).avail]
  tasks : ∀ x, x ∈ s'.tasks ↔ x ∈ s.tasks ∧ x ≠ c
  self : s'.ctx c = { s.ctx c with first := if (s.ctx c).reason = .initial then false else (s.ctx c).first }
  other : ∀ x, x ≠ c → s'.ctx x = s.ctx x
  mutex : s'.mutex = if serial then upd s.mutex (s.ctx c).key.1 true else s.mutex
  sf : (serial = true ∧ g.mode (s.ctx c).key.1 = .frameState ∧ s.serialFrame (s.ctx c).key.1 = -1 ∧
      s'.serialFrame = upd s.serialFrame (s.ctx c).key.1 (s.ctx c).key.2 ∧
      s'.owner = upd s.owner (s.ctx c).key.1 (some c)) ∨
    (¬ (serial = true ∧ g.mode (s.ctx c).key.1 = .frameState ∧ s.serialFrame (s.ctx c).key.1 = -1) ∧
      s'.serialFrame = s.serialFrame ∧ s'.owner = s.owner)

/-- A filter returns. -/
structure RetEff (g : Graph F L) (s s' : State F L) (j : Job) (o : Outcome F L) : Prop where
  mem : j ∈ s.running
  next : s'.next = s.next
  alt : s'.alt = s.alt
  tasks : s'.tasks = s.tasks
  running : ∀ i, i ∈ s'.running ↔ i ∈ s.running ∧ i.c ≠ j.c
  finished : s'.finished = (j.c, o.frame) :: s.finished
  returning : s'.returning = s.returning
  all : s'.all = s.all
  produced : s'.produced = s.produced ++ o.caches.map (fun (a : Int × F) => (((s.ctx j.c).key.1, a.1), a.2)) ++
      (o.frame.map (fun f => ((s.ctx j.c).key, f))).toList
  flush : s'.flush = s.flush
  trace : s'.trace = s.trace ++ [.ret j.c (s.ctx j.c).key o.reqs o.err o.frame]
  self : s'.ctx j.c = (s.ctx j.c).after g o
  other : ∀ x, x ≠ j.c → s'.ctx x = s.ctx x
  mutex : s'.mutex = if j.serial then upd s.mutex (s.ctx j.c).key.1 false else s.mutex
  sf : (j.serial = true ∧ g.mode (s.ctx j.c).key.1 = .frameState ∧
      (o.frame.isSome ∨ ((s.ctx j.c).after g o).error.isSome) ∧
      s'.serialFrame = upd s.serialFrame (s.ctx j.c).key.1 (-1) ∧
      s'.owner = upd s.owner (s.ctx j.c).key.1 none) ∨
    (¬ (j.serial = true ∧ g.mode (s.ctx j.c).key.1 = .frameState ∧
      (o.frame.isSome ∨ ((s.ctx j.c).after g o).error.isSome)) ∧
      s'.serialFrame = s.serialFrame ∧ s'.owner = s.owner)
  ok : s'.dead = none → ¬ (((s.ctx j.c).after g o).error.isSome ∧ o.frame.isSome)

/-- A request arrives. -/
structure ReqEff (g : Graph F L) (s s' : State F L) (k : Key) (reserve : Bool) : Prop where
  next : s'.next = s.next + 1
  running : s'.running = s.running
  finished : s'.finished = s.finished
  returning : s'.returning = s.returning
  all : s'.all = s.all
  mutex : s'.mutex = s.mutex
  serialFrame : s'.serialFrame = s.serialFrame
  owner : s'.owner = s.owner
  produced : s'.produced = s.produced
  flush : s'.flush = s.flush
  trace : s'.trace = s.trace ++ [.request s.next k]
  self : s'.ctx s.next = Ctx.ext g k (s.counter + 1)
  other : ∀ x, x ≠ s.next → s'.ctx x = s.ctx x
  tasks : (s.flush = true ∧ reserve = false ∧ s'.alt = s.alt ++ [s.next] ∧ s'.tasks = s.tasks) ∨
    ((s.flush = false ∨ reserve = true) ∧ s'.alt = s.alt ∧ s'.tasks = s.tasks ++ [s.next])

/-- A step, with what it changes. -/
inductive Eff (g : Graph F L) (s s' : State F L) : Action F L → Prop where
  | request (k : Key) (reserve : Bool) : ReqEff g s s' k reserve → Eff g s s' (.request k reserve)
  | setFlush : s' = { s with flush := true } → Eff g s s' .setFlush
  | hit {hit : Key → Option F} {full : Key → Bool} {c : Nat} {f : F} {r : Except String F} : c ∈ s.tasks →
      (s.ctx c).first = true → hit (s.ctx c).key = some f →
      r = (match (s.ctx c).error with | some m => .error m | none => .ok f) → EndEff s s' c r →
      Eff g s s' (.start hit full)
  | call {hit : Key → Option F} {full : Key → Bool} {c : Nat} {serial : Bool} : CallEff g s s' c serial →
      Eff g s s' (.start hit full)
  | swap {hit : Key → Option F} {full : Key → Bool} : s.pick g hit full s.tasks [] = .none →
      s.flush = true → s.running = [] → s.finished = [] → s.returning = [] → s' = s.swap →
      Eff g s s' (.start hit full)
  | ret {o : Outcome F L} {j : Job} : RetEff g s s' j o → Eff g s s' (.ret j.c o)
  | done {p : Nat × Option F} {r : Except String F} : p ∈ s.finished →
      (match (s.ctx p.1).error with
      | some m => r = .error m
      | none => ∃ f, p.2 = some f ∧ r = .ok f) → EndEff s s' p.1 r → Eff g s s' (.complete p.1)
  | wait {c : Nat} : WaitEff g s s' c → Eff g s s' (.complete c)
  | callback {p : Nat × Except String F} : p ∈ s.returning → s' = s.callback p.1 p.2 → Eff g s s' (.callback p.1)

theorem call_eff {g : Graph F L} {s : State F L} {c : Nat} {serial : Bool} (h : Acc g s []) (hc : c ∈ s.tasks)
    (h1 : serial = useSerial (g.mode (s.ctx c).key.1) (s.ctx c).first)
    (h2 : serial = true → s.blocked g c = false) : CallEff g s (s.call g c serial) c serial := by
  generalize hs' : s.call g c serial = s'
  have hn : s.tasks.Nodup := by
    have := h.nodup
    unfold State.lists at this
    exact (List.nodup_append.1 this).1
  have key : s'.next = s.next ∧ s'.alt = s.alt ∧ s'.running = ⟨c, serial, (s.ctx c).reason⟩ :: s.running ∧
      s'.finished = s.finished ∧ s'.returning = s.returning ∧ s'.all = s.all ∧ s'.produced = s.produced ∧
      s'.flush = s.flush ∧
      s'.trace = s.trace ++ [.call c (s.ctx c).key (s.ctx c).reason (s.ctx c).avail] ∧
      s'.tasks = s.tasks.erase c ∧
      s'.mutex = (if serial then upd s.mutex (s.ctx c).key.1 true else s.mutex) := by
    rw [← hs']
    unfold State.call
    simp only
    split <;> split <;> split <;> exact ⟨rfl, rfl, rfl, rfl, rfl, rfl, rfl, rfl, rfl, rfl, rfl⟩
  have hctx : s'.ctx = if (s.ctx c).reason = .initial then upd s.ctx c { s.ctx c with first := false } else s.ctx := by
    rw [← hs']
    unfold State.call
    simp only
    split <;> split <;> split <;> rfl
  have hsf : (serial = true ∧ g.mode (s.ctx c).key.1 = .frameState ∧ s.serialFrame (s.ctx c).key.1 = -1 ∧
      s'.serialFrame = upd s.serialFrame (s.ctx c).key.1 (s.ctx c).key.2 ∧
      s'.owner = upd s.owner (s.ctx c).key.1 (some c)) ∨
    (¬ (serial = true ∧ g.mode (s.ctx c).key.1 = .frameState ∧ s.serialFrame (s.ctx c).key.1 = -1) ∧
      s'.serialFrame = s.serialFrame ∧ s'.owner = s.owner) := by
    rw [← hs']
    unfold State.call
    simp only
    cases serial with
    | false =>
      right
      refine ⟨by simp, ?_, ?_⟩ <;> (simp only [Bool.false_and]; split <;> rfl)
    | true =>
      by_cases hm : g.mode (s.ctx c).key.1 = .frameState ∧ s.serialFrame (s.ctx c).key.1 = -1
      · left
        refine ⟨rfl, hm.1, hm.2, ?_, ?_⟩ <;> (simp only [hm.1, hm.2, if_true, beq_self_eq_true, Bool.and_self]; split <;> rfl)
      · right
        have : (g.mode (s.ctx c).key.1 == .frameState && s.serialFrame (s.ctx c).key.1 == -1) = false := by
          rw [Bool.and_eq_false_iff]
          rw [Classical.not_and_iff_not_or_not] at hm
          exact hm.imp (fun a => by simpa using a) (fun a => by simpa using a)
        refine ⟨fun a => hm a.2, ?_, ?_⟩ <;> (simp only [if_true, Bool.true_and, this]; split <;> rfl)
  obtain ⟨a1, a2, a3, a4, a5, a6, a7, a8, a9, a10, a11⟩ := key
  refine ⟨hc, h1, ?_, a1, a2, a3, a4, a5, a6, a7, a8, a9, ?_, ?_, ?_, a11, hsf⟩
  · intro hs
    have := h2 hs
    unfold State.blocked at this
    simp only [Bool.or_eq_false_iff] at this
    refine ⟨this.1, fun hm => ?_⟩
    have h3 := this.2
    rw [hm] at h3
    simp only [beq_self_eq_true, Bool.true_and, Bool.and_eq_false_iff, bne_eq_false_iff_eq] at h3
    exact h3
  · intro x
    rw [a10, hn.mem_erase_iff]
    exact And.comm
  · rw [hctx]
    split
    · exact upd_self ..
    · rfl
  · intro x hx
    rw [hctx]
    split
    · exact upd_ne _ _ hx
    · rfl

theorem ret_eff {g : Graph F L} {s : State F L} {j : Job} {o : Outcome F L} (h : Acc g s []) (hj : j ∈ s.running) :
    RetEff g s (s.ret g j.c j.serial o) j o := by
  generalize hs' : s.ret g j.c j.serial o = s'
  have hn : (s.running.map Job.c).Nodup := by
    have := h.nodup
    unfold State.lists at this
    exact (List.nodup_append.1 (List.nodup_append.1 (List.nodup_append.1 this).2.1).2.1).1
  have key : s'.next = s.next ∧ s'.alt = s.alt ∧ s'.running = s.running.eraseP (fun p => p.c == j.c) ∧
      s'.finished = (j.c, o.frame) :: s.finished ∧ s'.returning = s.returning ∧ s'.all = s.all ∧
      s'.produced = s.produced ++ o.caches.map (fun (a : Int × F) => (((s.ctx j.c).key.1, a.1), a.2)) ++
        (o.frame.map (fun f => ((s.ctx j.c).key, f))).toList ∧
      s'.flush = s.flush ∧ s'.tasks = s.tasks ∧
      s'.trace = s.trace ++ [.ret j.c (s.ctx j.c).key o.reqs o.err o.frame] ∧
      s'.mutex = (if j.serial then upd s.mutex (s.ctx j.c).key.1 false else s.mutex) ∧
      s'.ctx = upd s.ctx j.c ((s.ctx j.c).after g o) := by
    rw [← hs']
    unfold State.ret
    simp only
    split <;> split <;> split <;> exact ⟨rfl, rfl, rfl, rfl, rfl, rfl, rfl, rfl, rfl, rfl, rfl, rfl⟩
  have hd : s'.dead = none → ¬ (((s.ctx j.c).after g o).error.isSome ∧ o.frame.isSome) := by
    rw [← hs']
    unfold State.ret
    simp only
    intro hd he
    rw [if_pos (by rw [he.1, he.2]; rfl)] at hd
    cases hd
  have hsf : (j.serial = true ∧ g.mode (s.ctx j.c).key.1 = .frameState ∧
      (o.frame.isSome ∨ ((s.ctx j.c).after g o).error.isSome) ∧
      s'.serialFrame = upd s.serialFrame (s.ctx j.c).key.1 (-1) ∧
      s'.owner = upd s.owner (s.ctx j.c).key.1 none) ∨
    (¬ (j.serial = true ∧ g.mode (s.ctx j.c).key.1 = .frameState ∧
      (o.frame.isSome ∨ ((s.ctx j.c).after g o).error.isSome)) ∧
      s'.serialFrame = s.serialFrame ∧ s'.owner = s.owner) := by
    rw [← hs']
    unfold State.ret
    simp only
    by_cases hc : (j.serial && (o.frame.isSome || ((s.ctx j.c).after g o).error.isSome) &&
        g.mode (s.ctx j.c).key.1 == .frameState) = true
    · left
      have hc' := hc
      simp only [Bool.and_eq_true, Bool.or_eq_true, beq_iff_eq] at hc'
      refine ⟨hc'.1.1, hc'.2, hc'.1.2, ?_, ?_⟩
      · simp only [hc, if_true]
        split <;> split <;> rfl
      · simp only [hc, if_true]
        split <;> split <;> rfl
    · right
      refine ⟨fun ha => hc ?_, ?_, ?_⟩
      · simp only [Bool.and_eq_true, Bool.or_eq_true, beq_iff_eq]
        exact ⟨⟨ha.1, ha.2.2⟩, ha.2.1⟩
      · rw [if_neg hc]
        split <;> split <;> rfl
      · rw [if_neg hc]
        split <;> split <;> rfl
  obtain ⟨a1, a2, a3, a4, a5, a6, a7, a8, a9, a10, a11, a12⟩ := key
  refine ⟨hj, a1, a2, a9, ?_, a4, a5, a6, a7, a8, a10, ?_, ?_, a11, hsf, hd⟩
  · intro i
    rw [a3]
    obtain ⟨a, l1, l2, b1, b2, b3, b4⟩ := List.exists_of_eraseP (p := fun p => p.c == j.c) hj (by simp)
    have ha : a.c = j.c := by simpa using b2
    rw [b3] at hn
    rw [b4, b3]
    rw [List.map_append, List.map_cons, List.nodup_append] at hn
    simp only [List.mem_append, List.mem_cons]
    constructor
    · rintro (hi | hi)
      · refine ⟨.inl hi, fun e => ?_⟩
        exact hn.2.2 i.c (List.mem_map.2 ⟨i, hi, rfl⟩) a.c (List.mem_cons_self ..) (e.trans ha.symm)
      · refine ⟨.inr (.inr hi), fun e => ?_⟩
        refine (List.nodup_cons.1 hn.2.1).1 ?_
        rw [ha, ← e]
        exact List.mem_map.2 ⟨i, hi, rfl⟩
    · rintro ⟨hi | rfl | hi, e⟩
      · exact .inl hi
      · exact absurd ha e
      · exact .inr hi
  · rw [a12]; exact upd_self ..
  · intro x hx; rw [a12]; exact upd_ne _ _ hx

theorem request_eff {g : Graph F L} {s : State F L} (k : Key) (reserve : Bool) :
    ReqEff g s (s.request g k reserve) k reserve := by
  unfold State.request
  simp only
  by_cases hc : (s.flush && !reserve) = true
  · rw [if_pos hc]
    rw [Bool.and_eq_true, Bool.not_eq_true'] at hc
    exact ⟨rfl, rfl, rfl, rfl, rfl, rfl, rfl, rfl, rfl, rfl, rfl, upd_self .., fun x hx => upd_ne _ _ hx,
      .inl ⟨hc.1, hc.2, rfl, rfl⟩⟩
  · rw [if_neg hc]
    refine ⟨rfl, rfl, rfl, rfl, rfl, rfl, rfl, rfl, rfl, rfl, rfl, upd_self .., fun x hx => upd_ne _ _ hx,
      .inr ⟨?_, rfl, rfl⟩⟩
    revert hc
    cases s.flush <;> cases reserve <;> simp

theorem mem_eraseP_iff {α : Type} {f : α → Nat} {l : List α} {c : Nat} (hn : (l.map f).Nodup) (i : α) :
    i ∈ l.eraseP (fun p => f p == c) ↔ i ∈ l ∧ f i ≠ c := by
  induction l with
  | nil => simp
  | cons a t ih =>
    rw [List.map_cons, List.nodup_cons] at hn
    rw [List.eraseP_cons]
    by_cases e : f a = c
    · rw [show (f a == c) = true by simpa using e, cond_true]
      rw [List.mem_cons]
      constructor
      · intro hi
        refine ⟨.inr hi, fun e' => hn.1 ?_⟩
        rw [e, ← e']
        exact List.mem_map.2 ⟨i, hi, rfl⟩
      · rintro ⟨rfl | hi, h2⟩
        · exact absurd e h2
        · exact hi
    · rw [show (f a == c) = false by simpa using e, cond_false, List.mem_cons, List.mem_cons, ih hn.2]
      constructor
      · rintro (rfl | hi)
        · exact ⟨.inl rfl, e⟩
        · exact ⟨.inr hi.1, hi.2⟩
      · rintro ⟨rfl | hi, h2⟩
        · exact .inl rfl
        · exact .inr ⟨hi, h2⟩

theorem hit_eff {g : Graph F L} {s : State F L} {c : Nat} (f : F) (h : Acc g s []) (hc : c ∈ s.tasks) :
    EndEff s (s.hit c f) c (match (s.ctx c).error with | some m => .error m | none => .ok f) := by
  have hn := h.nodup
  unfold State.lists at hn
  have hn' := List.nodup_append.1 hn
  refine endCtx_eff h (taken_task hc) ⟨rfl, rfl, rfl, rfl, rfl, rfl, rfl, rfl, rfl, rfl⟩ ?_ ?_ rfl (.inl hc) _
  · intro x
    show x ∈ s.tasks.erase c ↔ _
    rw [hn'.1.mem_erase_iff]; exact And.comm
  · intro p
    show p ∈ s.finished ↔ _
    refine ⟨fun hp => ⟨hp, fun e => ?_⟩, fun hp => hp.1⟩
    refine hn'.2.2 c hc c ?_ rfl
    simp only [List.mem_append]
    exact .inr (.inr (.inl (List.mem_map.2 ⟨p, hp, e⟩)))

theorem Acc.nodup_fin {g : Graph F L} {s : State F L} {l : List Nat} (h : Acc g s l) :
    (s.finished.map Prod.fst).Nodup := by
  have hn := h.nodup
  unfold State.lists at hn
  exact (List.nodup_append.1 (List.nodup_append.1 (List.nodup_append.1 (List.nodup_append.1 hn).2.1).2.1).2.1).1

theorem Acc.disj_fin {g : Graph F L} {s : State F L} {l : List Nat} (h : Acc g s l) {c : Nat}
    (hc : c ∈ s.finished.map Prod.fst) : c ∉ s.tasks ∧ c ∉ s.alt ∧ c ∉ s.running.map Job.c ∧
      c ∉ s.returning.map Prod.fst := by
  have hn := h.nodup
  unfold State.lists at hn
  simp only [List.nodup_append, List.mem_append] at hn
  obtain ⟨_, ⟨_, ⟨_, ⟨_, _, h1⟩, h2⟩, h3⟩, h4⟩ := hn
  exact ⟨fun hx => h4 c hx c (.inr (.inr (.inl hc))) rfl, fun hx => h3 c hx c (.inr (.inl hc)) rfl,
    fun hx => h2 c hx c (.inl hc) rfl, fun hx => h1 c hc c hx rfl⟩

theorem done_eff {g : Graph F L} {s : State F L} {p : Nat × Option F} (h : Acc g s []) (hp : p ∈ s.finished)
    (r : Except String F) :
    EndEff s ({ s with finished := s.finished.eraseP (fun q => q.1 == p.1) }.endCtx p.1 r) p.1 r := by
  have hc : p.1 ∈ s.finished.map Prod.fst := List.mem_map.2 ⟨p, hp, rfl⟩
  refine endCtx_eff h (taken_finished hp rfl) ⟨rfl, rfl, rfl, rfl, rfl, rfl, rfl, rfl, rfl, rfl⟩ ?_ ?_ rfl
    (.inr hc) r
  · intro x
    exact ⟨fun hx => ⟨hx, fun e => (h.disj_fin hc).1 (e ▸ hx)⟩, fun hx => hx.1⟩
  · intro q
    exact mem_eraseP_iff h.nodup_fin q

theorem eff_of_step {g : Graph F L} {s s' : State F L} {a : Action F L} (h : Acc g s [])
    (hs : s.step g a = some s') (hd : s'.dead = none) : Eff g s s' a := by
  obtain ⟨hd0, hs⟩ := step_cases hs
  cases hs with
  | request k reserve => exact .request k reserve (request_eff k reserve)
  | setFlush => exact .setFlush rfl
  | hit _ hc hf hh => exact .hit hc hf hh rfl (hit_eff _ h hc)
  | call _ hc h1 h2 => exact .call (call_eff h hc h1 h2)
  | swap h1 h2 h3 h4 h5 => exact .swap h1 h2 h3 h4 h5 rfl
  | ret hj => exact .ret (ret_eff h hj)
  | callback hp => exact .callback hp rfl
  | @complete p hp =>
    unfold State.complete at hd ⊢
    simp only at hd ⊢
    cases hx : (s.ctx p.1).error with
    | some m =>
      rw [hx] at hd
      refine .done (r := .error m) hp ?_ (done_eff h hp _)
      rw [hx]
    | none =>
      rw [hx] at hd
      cases hf : p.2 with
      | some f =>
        refine .done (r := .ok f) hp ?_ (done_eff h hp _)
        rw [hx]
        exact ⟨f, hf, rfl⟩
      | none =>
        rw [hf] at hd
        simp only at hd ⊢
        split at hd
        · cases hd
        · next hr =>
          split at hd
          · cases hd
          · next hneg =>
            rw [if_neg hr, if_neg hneg]
            refine .wait ?_
            have hpc : p.1 ∈ s.finished.map Prod.fst := List.mem_map.2 ⟨p, hp, rfl⟩
            have hlt : p.1 < s.next := h.lt p.1 (by
              unfold State.lists; simp only [List.mem_append]; exact .inr (.inr (.inr (.inl hpc))))
            have he := attachAll_eff (g := g) p.1 (s.ctx p.1).reqs
              (({ s with finished := s.finished.eraseP (fun q => q.1 == p.1) } : State F L).setCtx p.1
                (s.ctx p.1).wait) (fun e he => (h.all_ok e he).1) (by
                  intro e he'
                  have := (h.all_ok e he').2.1
                  by_cases ec : e.2 = p.1
                  · rw [ec] at this ⊢
                    rw [show (State.setCtx _ p.1 (s.ctx p.1).wait).ctx p.1 = (s.ctx p.1).wait from upd_self ..]
                    exact this
                  · rw [show (State.setCtx ({ s with finished := s.finished.eraseP (fun q => q.1 == p.1) } : State F L)
                      p.1 (s.ctx p.1).wait).ctx e.2 = s.ctx e.2 from upd_ne _ _ ec]
                    exact this)
            refine ⟨?_, hx, hr, ?_, he.next, he.alt, he.running, ?_, he.returning, he.mutex, he.serialFrame, he.owner,
              he.produced, he.flush, ?_, ?_, ?_, he.new, ?_, he.sub, he.all⟩
            · rw [← hf]; exact hp
            · intro k hk
              simp only [Bool.not_eq_true, List.any_eq_false, decide_eq_true_eq, Int.not_lt] at hneg
              exact hneg k hk
            · intro q
              show q ∈ (State.attachAll g _ _ _).finished ↔ _
              rw [he.finished]
              exact mem_eraseP_iff h.nodup_fin q
            · obtain ⟨es, t1, t2, t3, t4⟩ := he.trace
              refine ⟨es, t1, t2, t3, fun q d h1 h2 => ?_⟩
              rcases t4 q d h1 h2 with ⟨h3, h4⟩ | h3
              · exfalso
                have h5 : p.1 ∈ (s.ctx d).notify := by
                  by_cases ec : d = p.1
                  · rw [ec] at h4 ⊢
                    rw [show (State.setCtx _ p.1 (s.ctx p.1).wait).ctx p.1 = (s.ctx p.1).wait from upd_self ..] at h4
                    exact h4
                  · rw [show (State.setCtx ({ s with finished := s.finished.eraseP (fun q => q.1 == p.1) } : State F L)
                      p.1 (s.ctx p.1).wait).ctx d = s.ctx d from upd_ne _ _ ec] at h4
                    exact h4
                have := owed_ge (ctx := s.ctx) (all := s.all) (e := (q, d)) h3 h5
                have hb := h.bal p.1
                rw [List.count_nil, Nat.zero_add] at hb
                have h0 := h.idle p.1 (by
                  unfold State.lists; simp only [List.mem_append]; exact .inr (.inr (.inr (.inl hpc))))
                omega
              · exact h3
            · have := he.old p.1 hlt
              rw [show (State.setCtx _ p.1 (s.ctx p.1).wait).ctx p.1 = (s.ctx p.1).wait from upd_self ..] at this
              exact this
            · intro x hx1 hx2
              have := he.old x hx1
              rw [show (State.setCtx ({ s with finished := s.finished.eraseP (fun q => q.1 == p.1) } : State F L) p.1
                (s.ctx p.1).wait).ctx x = s.ctx x from upd_ne _ _ hx2] at this
              exact this
            · intro x
              rw [mem_sort, he.tasks]
              exact Iff.rfl

end VS.Pool
