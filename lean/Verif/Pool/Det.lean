import Verif.Pool.Progress
import Verif.Pool.Prog

/-!
# Results do not depend on the schedule
-/

namespace VS.Pool

variable {F : Type}

theorem collect_mem {ev : Key → Option F} : ∀ {ks : List Key} {fs : List F}, collect ev ks = some fs → ∀ q ∈ ks,
    ∃ f, ev q = some f
  | [], _, _, q, hq => nomatch hq
  | k :: t, fs, h, q, hq => by
    unfold collect at h
    split at h
    · next f fs' h1 h2 =>
      rcases List.mem_cons.1 hq with rfl | hq
      · exact ⟨f, h1⟩
      · exact collect_mem h2 q hq
    · cases h

theorem collect_none {ev : Key → Option F} {ks : List Key} {q : Key} (hq : q ∈ ks) (h : ev q = none) :
    collect ev ks = none := by
  cases hc : collect ev ks with
  | none => rfl
  | some fs =>
    obtain ⟨f, hf⟩ := collect_mem hc q hq
    rw [h] at hf; cases hf

theorem collect_le {ev ev' : Key → Option F} : ∀ {ks : List Key} {fs : List F}, collect ev ks = some fs →
    (∀ q ∈ ks, ∀ f, ev q = some f → ev' q = some f) → collect ev' ks = some fs
  | [], _, h, _ => h
  | k :: t, fs, h, hle => by
    unfold collect at h ⊢
    split at h
    · next f fs' h1 h2 =>
      rw [hle k (List.mem_cons_self ..) f h1, collect_le h2 (fun q hq => hle q (List.mem_cons_of_mem _ hq))]
      exact h
    · cases h

theorem collect_congr {ev ev' : Key → Option F} : ∀ {ks : List Key}, (∀ q ∈ ks, ev q = ev' q) →
    collect ev ks = collect ev' ks
  | [], _ => rfl
  | k :: t, h => by
    unfold collect
    rw [h k (List.mem_cons_self ..), collect_congr (fun q hq => h q (List.mem_cons_of_mem _ hq))]

theorem eval_congr {rank : Nat → Nat} {b : Nat} {ev ev' : Key → Option F} (h : ∀ q : Key, rank q.1 < b → ev q = ev' q) :
    ∀ {p : Prog F}, p.Below rank b → p.eval ev = p.eval ev' := by
  intro p hp
  induction hp with
  | done => rfl
  | fail => rfl
  | ask h1 _ ih =>
    unfold Prog.eval
    rw [collect_congr (fun q hq => h q (h1 q hq))]
    split
    · rfl
    · exact ih _

theorem last_node (P : Program F) (q : Key) : (P.last q).1 = q.1 := by
  unfold Program.last
  split <;> rfl

theorem evalTo_enough {P : Program F} {rank : Nat → Nat} (hP : P.Acyclic rank) : ∀ (n m : Nat) (k : Key),
    rank k.1 < n → rank k.1 < m → P.evalTo n k = P.evalTo m k := by
  intro n
  induction n with
  | zero => intro m k h; omega
  | succ n ih =>
    intro m k h1 h2
    cases m with
    | zero => omega
    | succ m =>
      unfold Program.evalTo
      refine eval_congr (b := rank k.1) ?_ (hP k)
      intro q hq
      exact ih m _ (by rw [last_node]; omega) (by rw [last_node]; omega)

/-- The result of a frame is what its tree gives with the results of the frames it asks for. -/
theorem Program.eval_eq {P : Program F} {rank : Nat → Nat} (hP : P.Acyclic rank) (k : Key) :
    P.eval rank k = (P.prog k).eval (fun q => P.eval rank (P.last q)) := by
  show (P.prog k).eval (fun q => P.evalTo (rank k.1) (P.last q)) = _
  refine eval_congr (b := rank k.1) ?_ (hP k)
  intro q hq
  exact evalTo_enough hP _ _ _ (by rw [last_node]; omega) (by omega)

/-- What a call that carries out a tree leaves behind. -/
theorem does_all {rank : Nat → Nat} {b : Nat} {ev : Key → Option F} {p : Prog F} {o : Outcome F (Kept F)}
    (hb : p.Below rank b) (hd : p.does o) :
    (∀ q ∈ o.reqs, rank q.1 < b) ∧ (∀ y, o.frame = some y → p.eval ev = some y) ∧
    (∀ m, o.err = some m → p.eval ev = none) ∧
    (o.frame = none → o.err = none → ∃ ks next, o.loc = some (ks, next) ∧ o.reqs = ks ∧
      (Prog.ask ks next).eval ev = p.eval ev ∧ (Prog.ask ks next).Below rank b) := by
  cases hb with
  | done =>
    obtain ⟨h1, h2, h3⟩ := hd
    rw [h1, h2, h3]
    exact ⟨(fun q hq => nomatch hq), fun y hy => hy, (fun _ h => nomatch h), (fun h => nomatch h)⟩
  | fail =>
    obtain ⟨h1, h2, h3⟩ := hd
    rw [h1, h2, h3]
    exact ⟨(fun q hq => nomatch hq), (fun y hy => nomatch hy), fun _ _ => rfl, (fun _ h => nomatch h)⟩
  | ask b1 b2 =>
    obtain ⟨h1, h2, h3, h4⟩ := hd
    rw [h1, h2, h3]
    exact ⟨b1, (fun y hy => nomatch hy), (fun _ h => nomatch h), fun _ _ => ⟨_, _, h4, rfl, rfl, .ask b1 b2⟩⟩

/-! ## More about steps -/

section
variable {L : Type}

theorem eff_loc {g : Graph F L} {s s' : State F L} {a : Action F L} (e : Eff g s s' a) {c : Nat} (hc : c < s.next)
    (h2 : ∀ j o, RetEff g s s' j o → j.c ≠ c) : (s'.ctx c).loc = (s.ctx c).loc := by
  cases e with
  | request k reserve e => rw [e.other _ (Nat.ne_of_lt hc)]
  | setFlush e => subst e; rfl
  | hit _ _ _ _ e => exact (e.gets c).same.loc
  | @call _ _ d _ e =>
    by_cases ec : c = d
    · subst ec; rw [e.self]
    · rw [e.other c ec]
  | swap _ _ _ _ _ e => subst e; rfl
  | ret e => rw [e.other c (fun ec => h2 _ _ e ec.symm)]
  | done _ _ e => exact (e.gets c).same.loc
  | @wait d e =>
    by_cases ec : c = d
    · subst ec; rw [e.self.loc]; rfl
    · rw [(e.old c hc ec).loc]
  | callback _ e => subst e; rfl

/-- Why a computation ends. -/
theorem eff_finish {g : Graph F L} {s s' : State F L} {a : Action F L} (h : Acc g s []) (e : Eff g s s' a)
    {es : List (Event F)} (hes : s'.trace = s.trace ++ es) {d : Nat} {q : Key} {r : Except String F}
    (hm : .finish d q r ∈ es) :
    (s.ctx d).key = q ∧ d < s.next ∧ (∀ m, r = .error m → (s.ctx d).error = some m) ∧
    (∀ f, r = .ok f → (s.ctx d).error = none ∧ ((d, some f) ∈ s.finished ∨
      ∃ hit full, a = .start hit full ∧ hit (s.ctx d).key = some f)) := by
  have hone : ∀ ev, s'.trace = s.trace ++ [ev] → .finish d q r = ev := by
    intro ev he
    rw [hes] at he
    rw [List.append_cancel_left he] at hm
    exact List.mem_singleton.1 hm
  have hnil : s'.trace = s.trace → False := by
    intro he
    rw [hes] at he
    have : es = [] := by simpa using he
    rw [this] at hm; cases hm
  cases e with
  | request k reserve e => cases hone _ e.trace
  | setFlush e => exact (hnil (by rw [e])).elim
  | @hit _ _ c f r' hc hf hh hr e =>
    have := hone _ e.trace
    injection this with e1 e2 e3
    subst e1; subst e2; subst e3
    refine ⟨rfl, h.lt _ (e.lists h), ?_, ?_⟩
    · rintro m rfl
      cases he : (s.ctx d).error with
      | none => rw [he] at hr; cases hr
      | some m' => rw [he] at hr; injection hr with hr; rw [hr]
    · rintro y rfl
      cases he : (s.ctx d).error with
      | none =>
        rw [he] at hr; injection hr with hr; subst hr
        exact ⟨rfl, .inr ⟨_, _, rfl, hh⟩⟩
      | some m' => rw [he] at hr; cases hr
  | call e => cases hone _ e.trace
  | swap _ _ _ _ _ e => exact (hnil (by rw [e]; rfl)).elim
  | ret e => cases hone _ e.trace
  | @done p r' hp hr e =>
    have := hone _ e.trace
    injection this with e1 e2 e3
    subst e1; subst e2; subst e3
    refine ⟨rfl, h.lt _ (e.lists h), ?_, ?_⟩
    · rintro m rfl; exact errOf_done hr
    · rintro y rfl
      have he : (s.ctx p.1).error = none := errOf_done hr
      refine ⟨he, .inl ?_⟩
      rw [he] at hr
      obtain ⟨f, h1, h2⟩ := hr
      injection h2 with h2
      subst h2
      rw [← h1]
      exact hp
  | wait e =>
    obtain ⟨es', t1, t2, _⟩ := e.trace
    rw [hes] at t1
    rw [List.append_cancel_left t1] at hm
    obtain ⟨_, _, e1, _⟩ := t2 _ hm
    cases e1
  | @callback p hp e => cases hone (.callback p.1 (s.ctx p.1).key p.2) (by rw [e]; rfl)

theorem eff_produced {g : Graph F L} {s s' : State F L} {a : Action F L} (e : Eff g s s' a) {x : Key × F}
    (hx : x ∈ s'.produced) : x ∈ s.produced ∨ ∃ j o, RetEff g s s' j o ∧ a = .ret j.c o ∧
      ((∃ y ∈ o.caches, x = (((s.ctx j.c).key.1, y.1), y.2)) ∨ ∃ f, o.frame = some f ∧ x = ((s.ctx j.c).key, f)) := by
  cases e with
  | request k reserve e => rw [e.produced] at hx; exact .inl hx
  | setFlush e => subst e; exact .inl hx
  | hit _ _ _ _ e => rw [e.rest.produced] at hx; exact .inl hx
  | call e => rw [e.produced] at hx; exact .inl hx
  | swap _ _ _ _ _ e => subst e; exact .inl hx
  | @ret o i e =>
    rw [e.produced] at hx
    rcases List.mem_append.1 hx with hx | hx
    · rcases List.mem_append.1 hx with hx | hx
      · exact .inl hx
      · obtain ⟨y, h1, h2⟩ := List.mem_map.1 hx
        exact .inr ⟨i, o, e, rfl, .inl ⟨y, h1, h2.symm⟩⟩
    · cases hf : o.frame with
      | none => rw [hf] at hx; cases hx
      | some f =>
        rw [hf] at hx
        exact .inr ⟨i, o, e, rfl, .inr ⟨f, hf, List.mem_singleton.1 hx⟩⟩
  | done _ _ e => rw [e.rest.produced] at hx; exact .inl hx
  | wait e => rw [e.produced] at hx; exact .inl hx
  | callback _ e => subst e; exact .inl hx

theorem eff_rets {g : Graph F L} {s s' : State F L} {a : Action F L} (e : Eff g s s' a) {c : Nat} {k : Key}
    {reqs : List Key} {err : Option String} {f : Option F} (hm : .ret c k reqs err f ∈ s'.trace) :
    .ret c k reqs err f ∈ s.trace ∨ ∃ j o, RetEff g s s' j o ∧ a = .ret j.c o ∧ reqs = o.reqs ∧
      k = (s.ctx j.c).key := by
  have hone : ∀ ev, s'.trace = s.trace ++ [ev] → (∀ c k q er f, ev ≠ .ret c k q er f) →
      .ret c k reqs err f ∈ s.trace := by
    intro ev h1 h2
    rw [h1] at hm
    rcases List.mem_append.1 hm with hm | hm
    · exact hm
    · exact absurd (List.mem_singleton.1 hm).symm (h2 _ _ _ _ _)
  cases e with
  | request k reserve e => exact .inl (hone _ e.trace (by simp))
  | setFlush e => subst e; exact .inl hm
  | hit _ _ _ _ e => exact .inl (hone _ e.trace (by simp))
  | call e => exact .inl (hone _ e.trace (by simp))
  | swap _ _ _ _ _ e => subst e; exact .inl hm
  | @ret o j e =>
    rw [e.trace] at hm
    rcases List.mem_append.1 hm with hm | hm
    · exact .inl hm
    · have := List.mem_singleton.1 hm
      injection this with _ e1 e2
      exact .inr ⟨j, o, e, rfl, e2, e1⟩
  | done _ _ e => exact .inl (hone _ e.trace (by simp))
  | wait e =>
    obtain ⟨es', t1, t2, _⟩ := e.trace
    rw [t1] at hm
    rcases List.mem_append.1 hm with hm | hm
    · exact .inl hm
    · obtain ⟨_, _, e1, _⟩ := t2 _ hm
      cases e1
  | @callback p hp e => exact .inl (hone (.callback p.1 (s.ctx p.1).key p.2) (by rw [e]; rfl) (by simp))

end

/-! ## The invariant -/

/-- What a computation that asked for frames will do next. -/
structure Asks (P : Program F) (rank : Nat → Nat) (s : State F (Kept F)) (c : Nat) (ks : List Key)
    (next : List F → Prog F) : Prop where
  loc : (s.ctx c).loc = some (ks, next)
  eval : (Prog.ask ks next).eval (fun q => P.eval rank (P.last q)) = P.eval rank (s.ctx c).key
  below : (Prog.ask ks next).Below rank (rank (s.ctx c).key.1)

def Invalid (P : Program F) (k : Key) : Prop := ¬ (0 ≤ k.2 ∧ k.2 < P.numFrames k.1)

structure Det (P : Program F) (rank : Nat → Nat) (s : State F (Kept F)) : Prop where
  prod : ∀ k f, (k, f) ∈ s.produced → P.eval rank k = some f
  av : ∀ c k f, (k, f) ∈ (s.ctx c).avail → P.eval rank k = some f
  err : ∀ c m, (s.ctx c).error = some m → P.eval rank (s.ctx c).key = none ∨
    ((s.ctx c).external = true ∧ Invalid P (s.ctx c).key)
  ext : ∀ c, (s.ctx c).external = true → Invalid P (s.ctx c).key → (s.ctx c).error.isSome = true
  wait : ∀ c, Waiting s c → ∃ ks next, Asks P rank s c ks next ∧ (∀ k ∈ ks, 0 ≤ (P.last k).2) ∧
    ∀ q d, Owes s c q d → q ∈ ks.map P.last
  run : ∀ j ∈ s.running, j.reason = .ready → ∃ ks next, Asks P rank s j.c ks next ∧ ∀ k ∈ ks, 0 ≤ (P.last k).2
  fin : ∀ p ∈ s.finished, (∀ y, p.2 = some y → P.eval rank (s.ctx p.1).key = some y) ∧
    (p.2 = none → (s.ctx p.1).error = none → ∃ ks next, Asks P rank s p.1 ks next ∧ (s.ctx p.1).reqs = ks.map P.last)
  ok : ∀ c k f, .finish c k (.ok f) ∈ s.trace → P.eval rank k = some f
  rets : ∀ c k reqs err f, .ret c k reqs err f ∈ s.trace → ∀ q ∈ reqs, rank q.1 < rank k.1

theorem init_det (P : Program F) (rank : Nat → Nat) : Det P rank (State.init (P.graph rank)) := by
  refine ⟨?_, ?_, ?_, ?_, ?_, ?_, ?_, ?_, ?_⟩
  · intro k f h; cases h
  · intro c k f h; cases h
  · intro c m h; cases h
  · intro c h; cases h
  · rintro c ⟨h1 | h1 | h1, _⟩
    · exact absurd h1 (Nat.lt_irrefl 0)
    · cases h1
    · cases h1
  · intro j h; cases h
  · intro p h; cases h
  · intro c k f h; cases h
  · intro c k reqs err f h; cases h

/-- What a call of a running job leaves behind. -/
theorem ret_all {P : Program F} {rank : Nat → Nat} (hP : P.Acyclic rank) {s : State F (Kept F)} (hd : Det P rank s)
    {j : Job} (hj : j ∈ s.running) {o : Outcome F (Kept F)}
    (hl : (P.graph rank).filter (s.ctx j.c).key j.reason (s.ctx j.c).loc (s.ctx j.c).avail o) :
    (∀ q ∈ o.reqs, rank q.1 < rank (s.ctx j.c).key.1) ∧
    (∀ y, o.frame = some y → P.eval rank (s.ctx j.c).key = some y) ∧
    (j.reason ≠ .error → (∀ m, o.err = some m → P.eval rank (s.ctx j.c).key = none) ∧
      (o.frame = none → o.err = none → ∃ ks next, o.loc = some (ks, next) ∧ o.reqs = ks ∧
        (Prog.ask ks next).eval (fun q => P.eval rank (P.last q)) = P.eval rank (s.ctx j.c).key ∧
        (Prog.ask ks next).Below rank (rank (s.ctx j.c).key.1))) := by
  obtain ⟨_, hl⟩ := hl
  cases hr : j.reason with
  | initial =>
    rw [hr] at hl
    obtain ⟨h1, h2, h3, h4⟩ := does_all (ev := fun q => P.eval rank (P.last q)) (hP (s.ctx j.c).key) hl
    rw [← Program.eval_eq hP] at h2 h3 h4
    exact ⟨h1, h2, fun _ => ⟨h3, h4⟩⟩
  | ready =>
    rw [hr] at hl
    obtain ⟨ks, next, fs, e1, e2, e3⟩ := hl
    obtain ⟨ks', next', ha, hn⟩ := hd.run j hj hr
    rw [ha.loc] at e1
    injection e1 with e1
    injection e1 with e1 e4
    subst e1; subst e4
    have hb := ha.below
    cases hb with
    | ask b1 b2 =>
      obtain ⟨h1, h2, h3, h4⟩ := does_all (ev := fun q => P.eval rank (P.last q)) (b2 fs) e3
      have hc : collect (fun q => P.eval rank (P.last q)) ks' = some fs := by
        refine collect_le e2 ?_
        intro q hq f hf
        refine hd.av j.c _ f ?_
        have hnn := hn q hq
        have : (if P.numFrames q.1 ≠ 0 ∧ q.2 ≥ P.numFrames q.1 then (q.1, P.numFrames q.1 - 1) else q) = P.last q := by
          unfold Program.last at hnn ⊢
          by_cases hcc : q.2 ≥ P.numFrames q.1
          · rw [if_pos hcc] at hnn ⊢
            simp only at hnn
            rw [if_pos ⟨by omega, hcc⟩]
          · rw [if_neg hcc, if_neg (fun hx => hcc hx.2)]
        rw [this] at hf
        exact lookup_some hf
      have he := ha.eval
      unfold Prog.eval at he
      rw [hc] at he
      simp only at he
      rw [he] at h2 h3 h4
      exact ⟨h1, h2, fun _ => ⟨h3, h4⟩⟩
  | error =>
    rw [hr] at hl
    refine ⟨?_, ?_, fun hx => absurd rfl hx⟩
    · rw [hl.1]; exact fun q hq => nomatch hq
    · rw [hl.2]; exact fun y hy => nomatch hy

theorem step_det {P : Program F} {rank : Nat → Nat} (hP : P.Acyclic rank) {s s' : State F (Kept F)}
    {a : Action F (Kept F)} (hi : Inv (P.graph rank) s) (hi' : Inv (P.graph rank) s') (hl : a.legal (P.graph rank) s)
    (hd : Det P rank s) (e : Eff (P.graph rank) s s' a) : Det P rank s' := by
  have h := hi.acc
  have h' := hi'.acc
  obtain ⟨es, hes⟩ := eff_trace e
  have hret : ∀ j o, RetEff (P.graph rank) s s' j o → a = .ret j.c o →
      (P.graph rank).filter (s.ctx j.c).key j.reason (s.ctx j.c).loc (s.ctx j.c).avail o := by
    rintro j o e' rfl
    exact hl j e'.mem rfl
  -- a computation that ends well has the right frame
  have hfinok : ∀ c q f, .finish c q (.ok f) ∈ es → P.eval rank q = some f := by
    intro c q f hm
    obtain ⟨h1, _, _, h4⟩ := eff_finish h e hes hm
    obtain ⟨_, h5⟩ := h4 f rfl
    rw [← h1]
    rcases h5 with h5 | ⟨hit, full, rfl, h5⟩
    · exact (hd.fin _ h5).1 f rfl
    · exact hd.prod _ _ (hl _ _ h5)
  have hkey : ∀ c, c < s.next → (s'.ctx c).key = (s.ctx c).key := fun c hc => (eff_key e hc).1
  have hasks : ∀ c ks next, c < s.next → (∀ j o, RetEff (P.graph rank) s s' j o → j.c ≠ c) → Asks P rank s c ks next →
      Asks P rank s' c ks next := by
    intro c ks next hc hn ha
    refine ⟨by rw [eff_loc e hc hn]; exact ha.loc, by rw [hkey c hc]; exact ha.eval, by rw [hkey c hc]; exact ha.below⟩
  refine ⟨?_, ?_, ?_, ?_, ?_, ?_, ?_, ?_, ?_⟩
  · -- prod
    intro k f hm
    rcases eff_produced e hm with h1 | ⟨j, o, h1, h2, h3⟩
    · exact hd.prod k f h1
    · have hfil := hret j o h1 h2
      rcases h3 with ⟨y, h3, h4⟩ | ⟨y, h3, h4⟩
      · injection h4 with h4 h5
        rw [h4, h5]
        exact hfil.1 y h3
      · injection h4 with h4 h5
        rw [h4, h5]
        exact (ret_all hP hd h1.mem hfil).2.1 y h3
  · -- av
    intro c k f hm
    rcases eff_avail h h' e hm with h1 | ⟨d, h1, h2⟩
    · exact hd.av c k f h1
    · rw [hes] at h2
      exact hfinok d k f (by rw [List.append_cancel_left h2]; exact List.mem_singleton.2 rfl)
  · -- err
    intro c m hm
    cases hx : (s.ctx c).error with
    | some m0 =>
      have hc : c < s.next := by
        refine Nat.lt_of_not_le (fun hn => ?_)
        rw [h.blank c hn] at hx; cases hx
      rw [hkey c hc, (eff_key e hc).2]
      exact hd.err c m0 hx
    | none =>
      rcases eff_error_new h h' e hm with h1 | ⟨_, h1, h2⟩ | ⟨j, o, h1, h2, h3, h4⟩ | ⟨q, d, h1, h2⟩
      · rw [hx] at h1; cases h1
      · right
        exact ⟨(hi'.t1.ev _ h1).2.2, (requestError_some h2).1⟩
      · left
        subst h2
        have hjr : j.c ∈ s.running.map Job.c := List.mem_map.2 ⟨j, h1.mem, rfl⟩
        have hc := h.lt _ (h.mem_lists.2 (.inr (.inr (.inl hjr))))
        rw [hkey j.c hc]
        refine ((ret_all hP hd h1.mem (hret j o h1 h4)).2.2 ?_).1 m h3
        intro hr
        have := (hi.ser.reason j h1.mem).1 hr
        rw [hx] at this; cases this
      · left
        have hlt := h1.lt h
        rw [hes] at h2
        obtain ⟨f1, _, f3, _⟩ := eff_finish h e hes (by rw [List.append_cancel_left h2]; exact List.mem_singleton.2 rfl)
        have hq : P.eval rank q = none := by
          rcases hd.err d m (f3 m rfl) with h3 | h3
          · rw [← f1]; exact h3
          · rw [(h.all_ok _ h1.1).2.2] at h3; cases h3.1
        have hp := h1.pending h
        have hw : Waiting s c := by
          refine ⟨.inl hp, ?_⟩
          cases hf : (s.ctx c).first with
          | false => rfl
          | true => have := (h.first_ok c hf).1; omega
        obtain ⟨ks, next, ha, _, ho⟩ := hd.wait c hw
        obtain ⟨k, hk, hkq⟩ := List.mem_map.1 (ho q d h1)
        rw [hkey c hlt.1, ← ha.eval]
        unfold Prog.eval
        rw [collect_none hk (by rw [hkq]; exact hq)]
  · -- ext
    intro c hext hinv
    by_cases hc : c < s.next
    · rw [(eff_key e hc).2] at hext
      rw [hkey c hc] at hinv
      have := hd.ext c hext hinv
      cases hx : (s.ctx c).error with
      | none => rw [hx] at this; cases this
      | some m => rw [eff_error e hc hx]; rfl
    · have hc' : c < s'.next := by
        refine Nat.lt_of_not_le (fun hn => ?_)
        rw [h'.blank c hn] at hext; cases hext
      have hf := eff_first_new e (Nat.not_lt.1 hc) hc'
      rw [(h'.first_ok c hf).2.2.1 hext]
      unfold Graph.requestError
      rw [if_pos]
      · rfl
      · have hinv' : ¬ (0 ≤ (s'.ctx c).key.2 ∧ (s'.ctx c).key.2 < P.numFrames (s'.ctx c).key.1) := hinv
        show (s'.ctx c).key.2 < 0 ∨ (s'.ctx c).key.2 ≥ P.numFrames (s'.ctx c).key.1
        omega
  · -- wait
    intro c hw
    rcases eff_waiting h h' e hw with h1 | h1
    · have hq := waiting_quiet (g := P.graph rank) h h' h1 hw
      obtain ⟨ks, next, ha, hn, ho⟩ := hd.wait c h1
      refine ⟨ks, next, hasks c ks next (h1.lt h) hq.2 ha, hn, fun q d hqd => ?_⟩
      rcases eff_owes_new h h' e hqd with h2 | h2
      · exact ho q d h2
      · exfalso
        have hm : c ∈ s.finished.map Prod.fst := List.mem_map.2 ⟨_, h2.1.mem, rfl⟩
        rcases h1.1 with b | b | b
        · have := h.idle c (h.mem_lists.2 (.inr (.inr (.inr (.inl hm))))); omega
        · exact (h.disj_fin hm).1 b
        · exact (h.disj_fin hm).2.1 b
    · obtain ⟨ks, next, ha, hr⟩ := (hd.fin _ h1.mem).2 rfl h1.error
      have hm : c ∈ s.finished.map Prod.fst := List.mem_map.2 ⟨_, h1.mem, rfl⟩
      refine ⟨ks, next, hasks c ks next (h1.lt h) (finished_quiet (g := P.graph rank) h hm).2 ha, ?_, ?_⟩
      · intro k hk
        exact h1.nonneg _ (by rw [hr]; exact List.mem_map.2 ⟨k, hk, rfl⟩)
      · intro q d ho
        obtain ⟨es', t1, t2, _, t4⟩ := h1.trace
        obtain ⟨q', d', e1, e2, _⟩ := t2 _ (t4 q d ho.1 ho.2)
        injection e1 with _ e1
        subst e1
        rw [← hr]; exact e2
  · -- run
    intro j hj hr
    rcases eff_running_new e hj with ⟨h1, h2⟩ | ⟨serial, h1, h2⟩
    · obtain ⟨ks, next, ha, hn⟩ := hd.run j h1 hr
      have hc := h.lt _ (h.mem_lists.2 (.inr (.inr (.inl (List.mem_map.2 ⟨j, h1, rfl⟩)))))
      exact ⟨ks, next, hasks j.c ks next hc h2 ha, hn⟩
    · have hw : Waiting s j.c := ⟨.inr (.inl h1.mem), reason_ready (by rw [← h2]; exact hr)⟩
      obtain ⟨ks, next, ha, hn, _⟩ := hd.wait j.c hw
      refine ⟨ks, next, hasks j.c ks next (hw.lt h) ?_ ha, hn⟩
      intro i o e' ei
      exact (h.disj_tasks h1.mem).2.1 (List.mem_map.2 ⟨i, e'.mem, ei⟩)
  · -- fin
    intro p hp
    rcases eff_finished e hp with h1 | ⟨j, o, h1, h2, rfl⟩
    · have hm : p.1 ∈ s.finished.map Prod.fst := List.mem_map.2 ⟨p, h1, rfl⟩
      have hc : p.1 < s.next := h.lt _ (h.mem_lists.2 (.inr (.inr (.inr (.inl hm)))))
      obtain ⟨b1, b2⟩ := hd.fin p h1
      rw [hkey p.1 hc]
      refine ⟨b1, fun c1 c2 => ?_⟩
      obtain ⟨ks, next, ha, hr⟩ := b2 c1 (by
        cases hx : (s.ctx p.1).error with
        | none => rfl
        | some m => rw [eff_error e hc hx] at c2; cases c2)
      exact ⟨ks, next, hasks p.1 ks next hc (finished_quiet (g := P.graph rank) h hm).2 ha, by rw [eff_reqs h h' e h1 hp]; exact hr⟩
    · have hjr : j.c ∈ s.running.map Job.c := List.mem_map.2 ⟨j, h1.mem, rfl⟩
      have hc := h.lt _ (h.mem_lists.2 (.inr (.inr (.inl hjr))))
      obtain ⟨a1, a2, a3⟩ := ret_all hP hd h1.mem (hret j o h1 h2)
      simp only
      refine ⟨by rw [hkey j.c hc]; exact a2, fun c1 c2 => ?_⟩
      rw [h1.self] at c2
      unfold Ctx.after at c2
      simp only at c2
      have hx : (s.ctx j.c).error = none := by
        cases hx : (s.ctx j.c).error with
        | none => rfl
        | some m => rw [hx] at c2; cases c2
      rw [hx] at c2
      have hnr : j.reason ≠ .error := by
        intro hr
        have := (hi.ser.reason j h1.mem).1 hr
        rw [hx] at this; cases this
      obtain ⟨ks, next, b1, b2, b3, b4⟩ := (a3 hnr).2 c1 (by simpa using c2)
      refine ⟨ks, next, ⟨?_, ?_, ?_⟩, ?_⟩
      · rw [h1.self]; exact b1
      · rw [hkey j.c hc]; exact b3
      · rw [hkey j.c hc]; exact b4
      · rw [h1.self]
        unfold Ctx.after
        simp only
        rw [hi.ser.noreq j.c (.inr (.inr (.inl hjr))), b2]
        rfl
  · -- ok
    intro c k f hm
    rw [hes] at hm
    rcases List.mem_append.1 hm with hm | hm
    · exact hd.ok c k f hm
    · exact hfinok c k f hm
  · -- rets
    intro c k reqs err f hm
    rcases eff_rets e hm with hm | ⟨j, o, h1, h2, h3, h4⟩
    · exact hd.rets c k reqs err f hm
    · rw [h3, h4]
      exact (ret_all hP hd h1.mem (hret j o h1 h2)).1

theorem run_det {P : Program F} {rank : Nat → Nat} (hP : P.Acyclic rank) {as : List (Action F (Kept F))}
    {s : State F (Kept F)} (h : Run (P.graph rank) as s) (hd : s.dead = none) : Det P rank s := by
  induction h with
  | nil => exact init_det P rank
  | @snoc as s s' a h1 h2 h3 ih =>
    have hd0 := (step_cases h3).1
    have hi := run_inv h1 hd0
    exact step_det hP hi (run_inv (.snoc h1 h2 h3) hd) h2 (ih hd0) (eff_of_step hi.acc h3 hd)

theorem Program.graph_acyclic {P : Program F} {rank : Nat → Nat} (hP : P.Acyclic rank) :
    (P.graph rank).Acyclic rank :=
  fun _ _ h hd => (run_det hP h hd).rets

end VS.Pool
