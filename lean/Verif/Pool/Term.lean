import Verif.Pool.Alive
import Verif.Base.Sum

/-!
# The amount of work left

A number that every step of the scheduler lowers; only new requests and a request to flush raise it.
-/

namespace VS.Pool

variable {F : Type}

/-! ## Sums -/

theorem sum_erase {W : Key → Nat} {a : Key} {l : List Key} (h : a ∈ l) :
    (l.map W).sum = W a + ((l.erase a).map W).sum := by
  have := (List.perm_cons_erase h).map W
  rw [this.sum_nat]
  rfl

/-- Different elements of a list add up to at most all of them. -/
theorem sumTo_sub {W : Key → Nat} {key : Nat → Key} : ∀ (m : Nat) (l : List Key),
    (∀ x < m, ∀ y < m, key x = key y → x = y) → (∀ x < m, key x ∈ l) →
    sumTo (fun x => W (key x)) m ≤ (l.map W).sum
  | 0, _, _, _ => Nat.zero_le _
  | m + 1, l, h1, h2 => by
    show sumTo _ m + W (key m) ≤ _
    rw [sum_erase (h2 m (Nat.lt_succ_self m))]
    have := sumTo_sub (W := W) (key := key) m (l.erase (key m))
      (fun x hx y hy => h1 x (Nat.lt_succ_of_lt hx) y (Nat.lt_succ_of_lt hy)) (by
        intro x hx
        refine (List.mem_erase_of_ne ?_).2 (h2 x (Nat.lt_succ_of_lt hx))
        intro e
        have := h1 x (Nat.lt_succ_of_lt hx) m (Nat.lt_succ_self m) e
        omega)
    omega

/-! ## What a frame costs -/

/-- The steps a tree needs, given what the frames it asks for need and give. -/
def Prog.weight (W : Key → Nat) (ev : Key → Option F) : Prog F → Nat
  | .done _ => 10
  | .fail _ => 10
  | .ask ks next => 10 + (ks.map W).sum +
    (match collect ev ks with
    | some fs => (next fs).weight W ev
    | none => 10)

def Program.weightTo (P : Program F) (rank : Nat → Nat) : Nat → Key → Nat
  | 0, _ => 0
  | n + 1, k => (P.prog k).weight (fun q => P.weightTo rank n (P.last q)) (fun q => P.eval rank (P.last q))

/-- A bound on the steps that a frame needs. -/
def Program.weight (P : Program F) (rank : Nat → Nat) (k : Key) : Nat := P.weightTo rank (rank k.1 + 1) k

theorem weight_congr {rank : Nat → Nat} {b : Nat} {W W' : Key → Nat} {ev : Key → Option F}
    (h : ∀ q : Key, rank q.1 < b → W q = W' q) :
    ∀ {p : Prog F}, p.Below rank b → p.weight W ev = p.weight W' ev := by
  intro p hp
  induction hp with
  | done => rfl
  | fail => rfl
  | @ask ks next h1 _ ih =>
    unfold Prog.weight
    have : ks.map W = ks.map W' := List.map_congr_left (fun q hq => h q (h1 q hq))
    rw [this]
    split
    · rw [ih]
    · rfl

theorem weight_ge (W : Key → Nat) (ev : Key → Option F) (p : Prog F) : 10 ≤ p.weight W ev := by
  cases p with
  | done => exact Nat.le_refl _
  | fail => exact Nat.le_refl _
  | ask ks next => unfold Prog.weight; omega

theorem weightTo_enough {P : Program F} {rank : Nat → Nat} (hP : P.Acyclic rank) : ∀ (n m : Nat) (k : Key),
    rank k.1 < n → rank k.1 < m → P.weightTo rank n k = P.weightTo rank m k := by
  intro n
  induction n with
  | zero => intro m k h; omega
  | succ n ih =>
    intro m k h1 h2
    cases m with
    | zero => omega
    | succ m =>
      unfold Program.weightTo
      refine weight_congr (b := rank k.1) ?_ (hP k)
      intro q hq
      exact ih m _ (by rw [last_node]; omega) (by rw [last_node]; omega)

theorem Program.weight_eq {P : Program F} {rank : Nat → Nat} (hP : P.Acyclic rank) (k : Key) :
    P.weight rank k = (P.prog k).weight (fun q => P.weight rank (P.last q)) (fun q => P.eval rank (P.last q)) := by
  show (P.prog k).weight (fun q => P.weightTo rank (rank k.1) (P.last q)) _ = _
  refine weight_congr (b := rank k.1) ?_ (hP k)
  intro q hq
  exact weightTo_enough hP _ _ _ (by rw [last_node]; omega) (by omega)

/-- What is left when the frames asked for have come. -/
def Program.nextW (P : Program F) (rank : Nat → Nat) : Kept F → Nat
  | none => 10
  | some (ks, next) =>
    match collect (fun q => P.eval rank (P.last q)) ks with
    | some fs => (next fs).weight (fun q => P.weight rank (P.last q)) (fun q => P.eval rank (P.last q))
    | none => 10

theorem nextW_ge (P : Program F) (rank : Nat → Nat) (l : Kept F) : 10 ≤ P.nextW rank l := by
  unfold Program.nextW
  split
  · exact Nat.le_refl _
  · split
    · exact weight_ge _ _ _
    · exact Nat.le_refl _

theorem weight_ask (P : Program F) (rank : Nat → Nat) (ks : List Key) (next : List F → Prog F) :
    (Prog.ask ks next).weight (fun q => P.weight rank (P.last q)) (fun q => P.eval rank (P.last q)) =
      10 + ((ks.map P.last).map (P.weight rank)).sum + P.nextW rank (some (ks, next)) := by
  unfold Prog.weight Program.nextW
  rw [List.map_map]
  rfl

theorem does_weight {P : Program F} {rank : Nat → Nat} {p : Prog F} {o : Outcome F (Kept F)} (hd : p.does o) :
    (o.frame.isSome = true ∨ o.err.isSome = true) ∨
    (o.frame = none ∧ o.err = none ∧ p.weight (fun q => P.weight rank (P.last q)) (fun q => P.eval rank (P.last q)) =
      10 + ((o.reqs.map P.last).map (P.weight rank)).sum + P.nextW rank o.loc) := by
  cases p with
  | done =>
    obtain ⟨h1, h2, h3⟩ := hd
    rw [h3]; exact .inl (.inl rfl)
  | fail =>
    obtain ⟨h1, h2, h3⟩ := hd
    rw [h2]; exact .inl (.inr rfl)
  | ask ks next =>
    obtain ⟨h1, h2, h3, h4⟩ := hd
    refine .inr ⟨h3, h2, ?_⟩
    rw [h1, h4]
    exact weight_ask P rank ks next

/-! ## Where a computation is -/

section
variable {L : Type}

def Queued (s : State F L) (c : Nat) : Prop := c ∈ s.tasks ∨ c ∈ s.alt ∨ 0 < (s.ctx c).pending

instance (s : State F L) (c : Nat) : Decidable (Queued s c) := inferInstanceAs (Decidable (_ ∨ _ ∨ _))

theorem Acc.queued_out {g : Graph F L} {s : State F L} (h : Acc g s []) {c : Nat} (hq : Queued s c) :
    c ∉ s.running.map Job.c ∧ c ∉ s.finished.map Prod.fst ∧ c ∉ s.returning.map Prod.fst := by
  rcases hq with hq | hq | hq
  · exact (h.disj_tasks hq).2
  · have hn := h.nodup
    unfold State.lists at hn
    simp only [List.nodup_append, List.mem_append] at hn
    obtain ⟨_, ⟨_, _, h3⟩, _⟩ := hn
    exact ⟨fun hx => h3 c hq c (.inl hx) rfl, fun hx => h3 c hq c (.inr (.inl hx)) rfl,
      fun hx => h3 c hq c (.inr (.inr hx)) rfl⟩
  · have := h.out_of_pending hq
    rw [h.mem_lists] at this
    exact ⟨fun hx => this (.inr (.inr (.inl hx))), fun hx => this (.inr (.inr (.inr (.inl hx)))),
      fun hx => this (.inr (.inr (.inr (.inr hx))))⟩

theorem Acc.fin_inj {g : Graph F L} {s : State F L} (h : Acc g s []) {p q : Nat × Option F}
    (hp : p ∈ s.finished) (hq : q ∈ s.finished) (e : p.1 = q.1) : p = q := by
  have key : ∀ (l : List (Nat × Option F)), (l.map Prod.fst).Nodup → p ∈ l → q ∈ l → p = q := by
    intro l
    induction l with
    | nil => intro _ hx; cases hx
    | cons a t ih =>
      intro hn h1 h2
      rw [List.map_cons, List.nodup_cons] at hn
      rcases List.mem_cons.1 h1 with rfl | h3 <;> rcases List.mem_cons.1 h2 with rfl | h4
      · rfl
      · exact absurd (List.mem_map.2 ⟨q, h4, e.symm⟩) hn.1
      · exact absurd (List.mem_map.2 ⟨p, h3, e⟩) hn.1
      · exact ih hn.2 h3 h4
  exact key _ h.nodup_fin hp hq

end

def jobW (P : Program F) (rank : Nat → Nat) (x : Ctx F (Kept F)) : Reason → Nat
  | .initial => P.weight rank x.key - 1
  | .ready => P.nextW rank x.loc - 1
  | .error => 9

def finW (P : Program F) (rank : Nat → Nat) (x : Ctx F (Kept F)) (f : Option F) : Nat :=
  if f.isSome || x.error.isSome then 8 else 8 + (x.reqs.map (P.weight rank)).sum + P.nextW rank x.loc

def queW (P : Program F) (rank : Nat → Nat) (x : Ctx F (Kept F)) : Nat :=
  if x.first then (if x.error.isSome then 10 else P.weight rank x.key) else P.nextW rank x.loc

/-- The work left for one computation. -/
def pot (P : Program F) (rank : Nat → Nat) (s : State F (Kept F)) (c : Nat) : Nat :=
  if Queued s c then queW P rank (s.ctx c)
  else match s.running.find? (fun j => j.c == c) with
    | some j => jobW P rank (s.ctx c) j.reason
    | none =>
      match s.finished.find? (fun p => p.1 == c) with
      | some p => finW P rank (s.ctx c) p.2
      | none => if c ∈ s.returning.map Prod.fst then 5 else 0

/-- The work left. -/
def work (P : Program F) (rank : Nat → Nat) (s : State F (Kept F)) : Nat :=
  sumTo (pot P rank s) s.next + (if s.flush then 1 else 0)

variable {P : Program F} {rank : Nat → Nat} {g : Graph F (Kept F)}

theorem pot_queued {s : State F (Kept F)} {c : Nat} (hq : Queued s c) : pot P rank s c = queW P rank (s.ctx c) := by
  unfold pot
  rw [if_pos hq]

theorem pot_running {s : State F (Kept F)} (h : Acc g s []) {j : Job} (hj : j ∈ s.running) :
    pot P rank s j.c = jobW P rank (s.ctx j.c) j.reason := by
  unfold pot
  rw [if_neg (fun hq => (h.queued_out hq).1 (List.mem_map.2 ⟨j, hj, rfl⟩))]
  cases hf : s.running.find? (fun i => i.c == j.c) with
  | none => exact absurd (List.find?_eq_none.1 hf j hj) (by simp)
  | some i =>
    have e : i.c = j.c := by simpa using List.find?_some hf
    rw [h.job_inj (List.mem_of_find?_eq_some hf) hj e]

theorem find_running_none {s : State F (Kept F)} {c : Nat} (hc : c ∉ s.running.map Job.c) :
    s.running.find? (fun i => i.c == c) = none := by
  refine List.find?_eq_none.2 (fun i hi => ?_)
  intro e
  exact hc (List.mem_map.2 ⟨i, hi, by simpa using e⟩)

theorem find_finished_none {s : State F (Kept F)} {c : Nat} (hc : c ∉ s.finished.map Prod.fst) :
    s.finished.find? (fun i => i.1 == c) = none := by
  refine List.find?_eq_none.2 (fun i hi => ?_)
  intro e
  exact hc (List.mem_map.2 ⟨i, hi, by simpa using e⟩)

theorem pot_finished {s : State F (Kept F)} (h : Acc g s []) {p : Nat × Option F} (hp : p ∈ s.finished) :
    pot P rank s p.1 = finW P rank (s.ctx p.1) p.2 := by
  have hm : p.1 ∈ s.finished.map Prod.fst := List.mem_map.2 ⟨p, hp, rfl⟩
  unfold pot
  rw [if_neg (fun hq => (h.queued_out hq).2.1 hm), find_running_none (h.disj_fin hm).2.2.1]
  cases hf : s.finished.find? (fun i => i.1 == p.1) with
  | none => exact absurd (List.find?_eq_none.1 hf p hp) (by simp)
  | some i =>
    have e : i.1 = p.1 := by simpa using List.find?_some hf
    rw [h.fin_inj (List.mem_of_find?_eq_some hf) hp e]

theorem pot_out {s : State F (Kept F)} {c : Nat} (h1 : ¬ Queued s c) (h2 : c ∉ s.running.map Job.c)
    (h3 : c ∉ s.finished.map Prod.fst) :
    pot P rank s c = if c ∈ s.returning.map Prod.fst then 5 else 0 := by
  unfold pot
  rw [if_neg h1, find_running_none h2, find_finished_none h3]

/-- Nothing happens to a computation. -/
theorem pot_congr {s s' : State F (Kept F)} (h : Acc g s []) (h' : Acc g s' []) {x : Nat}
    (h1 : Queued s' x ↔ Queued s x) (h2 : ∀ j : Job, j.c = x → (j ∈ s'.running ↔ j ∈ s.running))
    (h3 : ∀ p : Nat × Option F, p.1 = x → (p ∈ s'.finished ↔ p ∈ s.finished))
    (h4 : x ∈ s'.returning.map Prod.fst ↔ x ∈ s.returning.map Prod.fst)
    (k1 : (s'.ctx x).key = (s.ctx x).key) (k2 : (s'.ctx x).first = (s.ctx x).first)
    (k3 : (s'.ctx x).loc = (s.ctx x).loc) (k4 : (s'.ctx x).reqs = (s.ctx x).reqs)
    (k5 : (Queued s x → (s.ctx x).first = true) → (s'.ctx x).error = (s.ctx x).error) :
    pot P rank s' x = pot P rank s x := by
  by_cases hq : Queued s x
  · rw [pot_queued hq, pot_queued (h1.2 hq)]
    unfold queW
    rw [k1, k2, k3]
    cases hf : (s.ctx x).first with
    | false => rfl
    | true => rw [k5 (fun _ => hf)]
  · have k5 := k5 (fun hx => absurd hx hq)
    by_cases hr : x ∈ s.running.map Job.c
    · obtain ⟨j, hj, rfl⟩ := List.mem_map.1 hr
      rw [pot_running h hj, pot_running h' ((h2 j rfl).2 hj)]
      unfold jobW
      rw [k1, k3]
    · by_cases hf : x ∈ s.finished.map Prod.fst
      · obtain ⟨p, hp, rfl⟩ := List.mem_map.1 hf
        rw [pot_finished h hp, pot_finished h' ((h3 p rfl).2 hp)]
        unfold finW
        rw [k4, k3, k5]
      · rw [pot_out hq hr hf, pot_out (fun hx => hq (h1.1 hx))]
        · simp only [h4]
        · intro hx
          obtain ⟨j, hj, rfl⟩ := List.mem_map.1 hx
          exact hr (List.mem_map.2 ⟨j, (h2 j rfl).1 hj, rfl⟩)
        · intro hx
          obtain ⟨p, hp, rfl⟩ := List.mem_map.1 hx
          exact hf (List.mem_map.2 ⟨p, (h3 p rfl).1 hp, rfl⟩)

end VS.Pool
