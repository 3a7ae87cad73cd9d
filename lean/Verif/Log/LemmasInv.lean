import Verif.Log.Lemmas

/-!
# Invariant of the log over histories

`R` is either equality (handlers that do not log) or permutation.
-/

namespace VS.Log
open VS.Log.Spec

theorem split_left {α : Type} {x y a b : List α} {e : α} (h : x ++ y = a ++ e :: b)
    (hy : e ∉ y) : ∃ b', x = a ++ e :: b' ∧ b = b' ++ y := by
  rcases List.append_eq_append_iff.1 h with ⟨c, h1, h2⟩ | ⟨c, h1, h2⟩
  · exact absurd (h2 ▸ List.mem_append.2 (.inr (List.mem_cons_self ..))) hy
  · cases c with
    | nil =>
      rw [List.nil_append] at h2
      exact absurd (h2 ▸ List.mem_cons_self ..) hy
    | cons z c =>
      rw [List.cons_append] at h2
      injection h2 with h3 h4
      subst h3
      exact ⟨c, h1, h4⟩

theorem split_right {α : Type} {x y a b : List α} {e : α} (h : x ++ e :: y = a ++ e :: b)
    (hx : e ∉ x) (hy : e ∉ y) : a = x ∧ b = y := by
  rcases List.append_eq_append_iff.1 h with ⟨c, h1, h2⟩ | ⟨c, h1, h2⟩
  · cases c with
    | nil =>
      rw [List.nil_append] at h2
      injection h2 with _ h4
      rw [List.append_nil] at h1
      exact ⟨h1, h4.symm⟩
    | cons z c =>
      rw [List.cons_append] at h2
      injection h2 with h3 h4
      exact absurd (h4 ▸ List.mem_append.2 (.inr (List.mem_cons_self ..))) hy
  · cases c with
    | nil =>
      rw [List.nil_append] at h2
      injection h2 with _ h4
      rw [List.append_nil] at h1
      exact ⟨h1.symm, h4⟩
    | cons z c =>
      rw [List.cons_append] at h2
      injection h2 with h3 h4
      subst h3
      exact absurd (h1 ▸ List.mem_append.2 (.inr (List.mem_cons_self ..))) hx

/-- Relations between what was received and what should have been. -/
structure GoodRel (R : List Msg → List Msg → Prop) : Prop where
  refl : ∀ a, R a a
  app : ∀ {a b c d}, R a b → R c d → R (a ++ c) (b ++ d)

theorem good_eq : GoodRel Eq := ⟨fun _ => rfl, fun h h' => by rw [h, h']⟩

theorem good_perm : GoodRel List.Perm := ⟨List.Perm.refl, fun h h' => h.append h'⟩

/-- What is known of the deliveries to one handler that was installed after `t1`. -/
def Story (R : List Msg → List Msg → Prop) (t1 : List Event) (u : Nat) (t2 : List Event) : Prop :=
  (.installed u ∉ t1 ∧ .installed u ∉ t2 ∧ .removed u ∉ t1) ∧ received u t1 = [] ∧ ∃ old, Backlog t1 old ∧
    (.removed u ∉ t2 → R (received u t2) (old ++ logged t2)) ∧
    ∀ a b, t2 = a ++ .removed u :: b → R (received u a) (old ++ logged a) ∧
      received u b = [] ∧ .removed u ∉ b

structure Inv (R : List Msg → List Msg → Prop) (s : State) : Prop where
  nodup : s.handlers.Nodup
  nodup3 : s.handlers3.Nodup
  lt3 : ∀ h ∈ s.handlers3, h < s.next3
  inst : ∀ u, u ∈ s.handlers ↔ Installed s.trace u
  bound : ∀ u, (.installed u ∈ s.trace ∨ .removed u ∈ s.trace) → u < s.next
  sane : ∀ u, .removed u ∈ s.trace → .installed u ∈ s.trace
  unborn : ∀ u m, .deliver u m ∈ s.trace → u < s.next
  stored : s.handlers ≠ [] → s.stored = []
  kept : s.handlers = [] → ∃ b, Since s.trace b ∧ s.stored = (logged b).take maxStored
  hist : ∀ t1 u t2, s.trace = t1 ++ .installed u :: t2 → Story R t1 u t2

theorem not_mem_received {u : Nat} {t : List Event} (h : ∀ m, .deliver u m ∉ t) :
    received u t = [] := by
  unfold received
  rw [List.filterMap_eq_nil_iff]
  intro e he
  cases e with
  | deliver v m =>
    simp only
    rw [if_neg]
    rintro rfl
    exact h m he
  | _ => rfl

theorem mem_received {u : Nat} {t : List Event} {m : Msg} (h : .deliver u m ∈ t) :
    m ∈ received u t :=
  List.mem_filterMap.2 ⟨_, h, by simp⟩

/-- A stretch without changes of the handlers. -/
structure Quietly (R : List Msg → List Msg → Prop) (s s' : State) (t : List Event) : Prop where
  handlers : s'.handlers = s.handlers
  next : s'.next = s.next
  nodup3 : s'.handlers3.Nodup
  lt3 : ∀ h ∈ s'.handlers3, h < s'.next3
  trace : s'.trace = s.trace ++ t
  quiet : Quiet t
  live : ∀ u ∈ s.handlers, R (received u t) (logged t)
  others : ∀ u, u ∉ s.handlers → received u t = []
  stored : s.handlers ≠ [] → s'.stored = s.stored
  kept : s.handlers = [] → s'.stored = (s.stored ++ logged t).take (max maxStored s.stored.length)

theorem Installed.quiet {t t' : List Event} (h : Quiet t') (u : Nat) :
    Installed (t ++ t') u ↔ Installed t u := by
  unfold Installed
  simp only [List.mem_append, (h u).1, (h u).2, or_false]

theorem since_quiet {t t' b : List Event} (h : Quiet t') (hb : Since t b) : Since (t ++ t') (b ++ t') := by
  obtain ⟨a, h1, h2, h3, h4⟩ := hb
  exact ⟨a, by rw [h1, List.append_assoc], Quiet.append h2 h, h3, h4⟩

theorem quietly_inv {R : List Msg → List Msg → Prop} (hR : GoodRel R) {s s' : State}
    {t : List Event} (h : Inv R s) (q : Quietly R s s' t) : Inv R s' where
  nodup := by rw [q.handlers]; exact h.nodup
  nodup3 := q.nodup3
  lt3 := q.lt3
  inst := fun u => by rw [q.handlers, q.trace, Installed.quiet q.quiet, h.inst]
  bound := fun u hu => by
    rw [q.trace] at hu
    simp only [List.mem_append, (q.quiet u).1, (q.quiet u).2, or_false] at hu
    rw [q.next]; exact h.bound u hu
  sane := fun u hu => by
    rw [q.trace] at hu ⊢
    simp only [List.mem_append, (q.quiet u).1, (q.quiet u).2, or_false] at hu ⊢
    exact h.sane u hu
  unborn := fun u m hm => by
    rw [q.trace, List.mem_append] at hm
    rw [q.next]
    rcases hm with hm | hm
    · exact h.unborn u m hm
    · rcases Decidable.em (u ∈ s.handlers) with hu | hu
      · exact h.bound u (.inl ((h.inst u).1 hu).1)
      · have := mem_received hm
        rw [q.others u hu] at this
        cases this
  stored := fun hne => by
    rw [q.handlers] at hne
    rw [q.stored hne, h.stored hne]
  kept := fun hn => by
    rw [q.handlers] at hn
    obtain ⟨b, h1, h2⟩ := h.kept hn
    refine ⟨b ++ t, by rw [q.trace]; exact since_quiet q.quiet h1, ?_⟩
    have hlen : s.stored.length ≤ maxStored := by
      rw [h2, List.length_take]; exact Nat.min_le_left ..
    rw [q.kept hn, Nat.max_eq_left hlen, h2, logged_append, List.take_append, List.take_append,
      List.take_take, Nat.min_self, List.length_take]
    congr 2
    omega
  hist := fun t1 u t2 e => by
    rw [q.trace] at e
    obtain ⟨t2', h1, rfl⟩ := split_left e (q.quiet u).1
    obtain ⟨g0, g1, old, g2, g3, g4⟩ := h.hist t1 u t2' h1
    refine ⟨⟨g0.1, by simpa [(q.quiet u).1] using g0.2.1, g0.2.2⟩, g1, old, g2, ?_, ?_⟩
    · intro hr
      simp only [List.mem_append, not_or] at hr
      have hin : u ∈ s.handlers := by
        rw [h.inst, h1]
        refine ⟨List.mem_append.2 (.inr (List.mem_cons_self ..)), ?_⟩
        intro hx
        rcases List.mem_append.1 hx with hx | hx
        · exact g0.2.2 hx
        · rcases List.mem_cons.1 hx with hx | hx
          · cases hx
          · exact hr.1 hx
      rw [received_append, logged_append, ← List.append_assoc]
      exact hR.app (g3 hr.1) (q.live u hin)
    · intro a b e2
      obtain ⟨b', h2, rfl⟩ := split_left e2 (q.quiet u).2
      obtain ⟨g5, g6, g7⟩ := g4 a b' h2
      refine ⟨g5, ?_, by simpa [(q.quiet u).2] using g7⟩
      have hout : u ∉ s.handlers := by
        rw [h.inst, h1, h2]
        intro hx
        exact hx.2 (by simp)
      rw [received_append, g6, q.others u hout]
      rfl

theorem since_unique {t b b' : List Event} (h : Since t b) (h' : Since t b') : b = b' := by
  obtain ⟨a, h1, h2, _, h4⟩ := h
  obtain ⟨a', g1, g2, _, g4⟩ := h'
  have key : ∀ {a a' b b' : List Event}, a ++ b = a' ++ b' → Quiet b →
      (a' = [] ∨ ∃ x u, a' = x ++ [.removed u]) → ∃ c, a = a' ++ c ∧ b' = c ++ b := by
    intro a a' b b' e hq hend
    rcases List.append_eq_append_iff.1 e with ⟨c, e1, e2⟩ | ⟨c, e1, e2⟩
    · rcases hend with rfl | ⟨x, u, rfl⟩
      · exact ⟨a, rfl, by rw [e, List.nil_append]⟩
      · rcases List.eq_nil_or_concat c with rfl | ⟨c', z, rfl⟩
        · rw [List.append_nil] at e1
          exact ⟨[], by rw [List.append_nil, e1], by simpa using e2.symm⟩
        · rw [List.concat_eq_append, ← List.append_assoc] at e1
          have := List.append_inj_right' e1 rfl
          injection this with this
          subst this
          exact absurd (e2 ▸ by simp) (hq u).2
    · exact ⟨c, e1, e2⟩
  obtain ⟨c, e1, e2⟩ := key (h1.symm.trans g1) h2 g4
  obtain ⟨d, f1, f2⟩ := key (g1.symm.trans h1) g2 h4
  rw [e2] at f2
  have hl := congrArg List.length f2
  simp only [List.length_append] at hl
  have : c = [] := List.eq_nil_of_length_eq_zero (by omega)
  rw [this, List.nil_append] at e2
  exact e2.symm

/-- What the next handler will be told. -/
def backlog (s : State) : List Msg :=
  s.stored ++ if s.stored.length = maxStored then [discardedMsg] else []

theorem backlog_ok {R : List Msg → List Msg → Prop} {s : State} (h : Inv R s) :
    Backlog s.trace (backlog s) := by
  unfold backlog
  constructor
  · rintro ⟨v, hv⟩
    have hm := (h.inst v).2 hv
    have : s.handlers ≠ [] := by intro e; rw [e] at hm; cases hm
    rw [h.stored this]
    rfl
  · intro b hb
    have hnil : s.handlers = [] := by
      cases hh : s.handlers with
      | nil => rfl
      | cons v l =>
        obtain ⟨a, e, hq, hno, _⟩ := hb
        have := (h.inst v).1 (by rw [hh]; exact List.mem_cons_self ..)
        rw [e, Installed.quiet hq] at this
        exact absurd this (hno v)
    obtain ⟨b', h1, h2⟩ := h.kept hnil
    have := since_unique h1 hb
    subst this
    rw [h2, List.length_take]
    show _ = (logged b').take maxStored ++ if maxStored ≤ _ then _ else _
    by_cases hle : maxStored ≤ (logged b').length
    · rw [if_pos (by omega), if_pos hle]
    · rw [if_neg (by omega), if_neg hle]

theorem mem_insertAt {pos h x : Nat} {l : List Nat} : x ∈ insertAt pos h l ↔ x = h ∨ x ∈ l := by
  unfold insertAt
  have : x ∈ l ↔ x ∈ l.take pos ∨ x ∈ l.drop pos := by
    rw [← List.mem_append, List.take_append_drop]
  simp only [List.mem_append, List.mem_cons, this]
  grind

theorem nodup_insertAt {pos h : Nat} {l : List Nat} (hn : l.Nodup) (hh : h ∉ l) :
    (insertAt pos h l).Nodup := by
  unfold insertAt
  rw [List.perm_middle.nodup_iff, List.take_append_drop]
  exact List.nodup_cons.2 ⟨hh, hn⟩

/-- What adding a handler does. -/
structure Added (R : List Msg → List Msg → Prop) (s s' : State) (t : List Event) : Prop where
  handlers : ∃ pos, s'.handlers = insertAt pos s.next s.handlers
  next : s'.next = s.next + 1
  handlers3 : s'.handlers3 = s.handlers3
  next3 : s'.next3 = s.next3
  trace : s'.trace = s.trace ++ .installed s.next :: t
  quiet : Quiet t
  live : ∀ u ∈ s.handlers, R (received u t) (logged t)
  fresh : R (received s.next t) (backlog s ++ logged t)
  others : ∀ u, u ∉ s.handlers → u ≠ s.next → received u t = []
  stored : s'.stored = []

theorem added_inv {R : List Msg → List Msg → Prop} (hR : GoodRel R) {s s' : State}
    {t : List Event} (h : Inv R s) (q : Added R s s' t) : Inv R s' := by
  have hfi : .installed s.next ∉ s.trace := fun x => Nat.lt_irrefl _ (h.bound _ (.inl x))
  have hfr : .removed s.next ∉ s.trace := fun x => Nat.lt_irrefl _ (h.bound _ (.inr x))
  have hfh : s.next ∉ s.handlers := fun x => hfi ((h.inst _).1 x).1
  have hmem : ∀ u, u ∈ s'.handlers ↔ u = s.next ∨ u ∈ s.handlers := by
    intro u
    obtain ⟨pos, e⟩ := q.handlers
    rw [e, mem_insertAt]
  refine ⟨?_, ?_, ?_, ?_, ?_, ?_, ?_, ?_, ?_, ?_⟩
  · obtain ⟨pos, e⟩ := q.handlers
    rw [e]; exact nodup_insertAt h.nodup hfh
  · rw [q.handlers3]; exact h.nodup3
  · rw [q.handlers3, q.next3]; exact h.lt3
  · intro u
    rw [hmem, h.inst, q.trace]
    unfold Installed
    simp only [List.mem_append, List.mem_cons, (q.quiet u).1, (q.quiet u).2, or_false,
      Event.installed.injEq, reduceCtorEq]
    constructor
    · rintro (rfl | ⟨h1, h2⟩)
      · exact ⟨.inr rfl, hfr⟩
      · exact ⟨.inl h1, h2⟩
    · rintro ⟨h1 | h1, h2⟩
      · exact .inr ⟨h1, h2⟩
      · exact .inl h1
  · intro u hu
    rw [q.trace] at hu
    simp only [List.mem_append, List.mem_cons, (q.quiet u).1, (q.quiet u).2, or_false,
      Event.installed.injEq, reduceCtorEq] at hu
    rw [q.next]
    rcases hu with (hu | rfl) | hu
    · have := h.bound u (.inl hu); omega
    · omega
    · have := h.bound u (.inr hu); omega
  · intro u hu
    rw [q.trace] at hu ⊢
    simp only [List.mem_append, List.mem_cons, (q.quiet u).1, (q.quiet u).2, or_false,
      Event.installed.injEq, reduceCtorEq] at hu ⊢
    exact .inl (h.sane u hu)
  · intro u m hm
    rw [q.trace] at hm
    simp only [List.mem_append, List.mem_cons, reduceCtorEq, false_or] at hm
    rw [q.next]
    rcases hm with hm | hm
    · have := h.unborn u m hm; omega
    · rcases Decidable.em (u = s.next) with e | e
      · omega
      · rcases Decidable.em (u ∈ s.handlers) with hu | hu
        · have := h.bound u (.inl ((h.inst u).1 hu).1); omega
        · have := mem_received hm
          rw [q.others u hu e] at this
          cases this
  · intro _; exact q.stored
  · intro e
    have : s.next ∈ s'.handlers := (hmem _).2 (.inl rfl)
    rw [e] at this; cases this
  · intro t1 u t2 e
    rw [q.trace] at e
    by_cases hu : u = s.next
    · subst hu
      obtain ⟨h1, h2⟩ := split_right e hfi (q.quiet _).1
      subst h1; subst h2
      refine ⟨⟨hfi, (q.quiet _).1, hfr⟩, ?_, backlog s, backlog_ok h, fun _ => q.fresh, ?_⟩
      · exact not_mem_received (fun m hm => Nat.lt_irrefl _ (h.unborn _ m hm))
      · intro a b e2
        exact absurd (e2 ▸ by simp) (q.quiet s.next).2
    · have hne : .installed u ∉ .installed s.next :: t := by
        simp only [List.mem_cons, Event.installed.injEq, (q.quiet u).1, or_false]
        exact hu
      obtain ⟨t2', h1, rfl⟩ := split_left e hne
      obtain ⟨g0, g1, old, g2, g3, g4⟩ := h.hist t1 u t2' h1
      refine ⟨⟨g0.1, ?_, g0.2.2⟩, g1, old, g2, ?_, ?_⟩
      · simp only [List.mem_append, not_or]
        exact ⟨g0.2.1, hne⟩
      · intro hr
        simp only [List.mem_append, List.mem_cons, not_or] at hr
        have hin : u ∈ s.handlers := by
          rw [h.inst, h1]
          refine ⟨List.mem_append.2 (.inr (List.mem_cons_self ..)), ?_⟩
          intro hx
          rcases List.mem_append.1 hx with hx | hx
          · exact g0.2.2 hx
          · rcases List.mem_cons.1 hx with hx | hx
            · cases hx
            · exact hr.1 hx
        rw [received_append, logged_append, ← List.append_assoc]
        exact hR.app (g3 hr.1) (q.live u hin)
      · intro a b e2
        have hnr : .removed u ∉ .installed s.next :: t := by simp [(q.quiet u).2]
        obtain ⟨b', h2, rfl⟩ := split_left e2 hnr
        obtain ⟨g5, g6, g7⟩ := g4 a b' h2
        have hout : u ∉ s.handlers := by
          rw [h.inst, h1, h2]
          intro hx
          exact hx.2 (by simp)
        refine ⟨g5, ?_, ?_⟩
        · rw [received_append, g6]
          show received u t = []
          exact q.others u hout hu
        · simp only [List.mem_append, not_or]
          exact ⟨g7, hnr⟩

theorem removed_inv {R : List Msg → List Msg → Prop} {s : State} (h : Inv R s) (hd : s.dead = false)
    (u : Nat) : Inv R (s.removeHandler u) := by
  unfold State.removeHandler
  rw [if_neg (by simp [hd])]
  split
  · next hu =>
    have hne : s.handlers ≠ [] := by intro e; rw [e] at hu; cases hu
    have hst : s.stored = [] := h.stored hne
    obtain ⟨hi, hr⟩ := (h.inst u).1 hu
    have hinst : ∀ v, v ∈ s.handlers.erase u ↔ Installed (s.trace ++ [.removed u]) v := by
      intro v
      rw [h.nodup.mem_erase_iff, h.inst]
      unfold Installed
      simp only [List.mem_append, List.mem_cons, List.not_mem_nil, or_false, reduceCtorEq,
        Event.removed.injEq, not_or]
      grind
    refine ⟨h.nodup.erase u, h.nodup3, h.lt3, hinst, ?_, ?_, ?_, fun _ => hst, ?_, ?_⟩
    · intro v hv
      simp only [List.mem_append, List.mem_cons, List.not_mem_nil, or_false, reduceCtorEq,
        Event.removed.injEq] at hv
      rcases hv with hv | hv | rfl
      · exact h.bound v (.inl hv)
      · exact h.bound v (.inr hv)
      · exact h.bound v (.inl hi)
    · intro v hv
      simp only [List.mem_append, List.mem_cons, List.not_mem_nil, or_false, reduceCtorEq,
        Event.removed.injEq] at hv ⊢
      rcases hv with hv | rfl
      · exact h.sane v hv
      · exact hi
    · intro v m hm
      simp only [List.mem_append, List.mem_cons, List.not_mem_nil, or_false, reduceCtorEq] at hm
      exact h.unborn v m hm
    · intro e
      refine ⟨[], ⟨s.trace ++ [.removed u], (List.append_nil _).symm, ?_, ?_, .inr ⟨_, _, rfl⟩⟩, hst⟩
      · intro v; simp
      · intro v hv
        have hv' := (hinst v).2 hv
        have e' : s.handlers.erase u = [] := e
        rw [e'] at hv'
        cases hv'
    · intro t1 v t2 e
      have hnv : (.installed v : Event) ∉ [.removed u] := by simp
      obtain ⟨t2', h1, rfl⟩ := split_left e hnv
      obtain ⟨g0, g1, old, g2, g3, g4⟩ := h.hist t1 v t2' h1
      have hrec : ∀ w, received w (t2' ++ [.removed u]) = received w t2' := by
        intro w; rw [received_append]; exact List.append_nil _
      have hlog : logged (t2' ++ [.removed u]) = logged t2' := by
        rw [logged_append]; exact List.append_nil _
      refine ⟨⟨g0.1, by simpa using g0.2.1, g0.2.2⟩, g1, old, g2, ?_, ?_⟩
      · intro hx
        rw [hrec, hlog]
        exact g3 (fun y => hx (List.mem_append.2 (.inl y)))
      · intro a b e2
        by_cases huv : v = u
        · subst huv
          have hr2 : .removed v ∉ t2' := by
            intro hx
            exact hr (by rw [h1]; exact List.mem_append.2 (.inr (List.mem_cons_of_mem _ hx)))
          obtain ⟨e3, e4⟩ := split_right e2 hr2 (by simp)
          subst e3; subst e4
          exact ⟨g3 hr2, rfl, by simp⟩
        · obtain ⟨b', h2, rfl⟩ := split_left e2 (by simpa using huv)
          obtain ⟨g5, g6, g7⟩ := g4 a b' h2
          refine ⟨g5, ?_, by simpa [huv] using g7⟩
          rw [received_append, g6]
          rfl
  · exact h

theorem removeHandler_alive {s : State} (u : Nat) : (s.removeHandler u).dead = s.dead := by
  unfold State.removeHandler
  split
  · rfl
  · split <;> rfl

theorem removeAll_inv {R : List Msg → List Msg → Prop} :
    ∀ {n : Nat} {s : State}, Inv R s → s.dead = false → n = s.handlers.length →
      Inv R (removeAll n s) ∧ (removeAll n s).dead = false ∧ (removeAll n s).handlers = []
  | 0, s, h, hd, hn => ⟨h, hd, List.eq_nil_of_length_eq_zero hn.symm⟩
  | n + 1, s, h, hd, hn => by
    unfold removeAll
    split
    · next e => rw [e] at hn; cases hn
    · next u l e =>
      refine removeAll_inv (removed_inv h hd u) (by rw [removeHandler_alive, hd]) ?_
      have hu : u ∈ s.handlers := by rw [e]; exact List.mem_cons_self ..
      unfold State.removeHandler
      rw [if_neg (by simp [hd]), if_pos hu]
      show n = (s.handlers.erase u).length
      rw [List.length_erase_of_mem hu]
      omega

/-! ## Every call -/

theorem init_inv {R : List Msg → List Msg → Prop} : Inv R State.init where
  nodup := List.nodup_nil
  nodup3 := List.nodup_nil
  lt3 := fun _ h => nomatch h
  inst := fun u => by simp [State.init, Installed]
  bound := fun u h => by rcases h with h | h <;> cases h
  sane := fun _ h => nomatch h
  unborn := fun _ _ h => nomatch h
  stored := fun h => absurd rfl h
  kept := fun _ => ⟨[], ⟨[], rfl, fun h => by simp, fun u h => by simp [Installed] at h, .inl rfl⟩, rfl⟩
  hist := fun t1 u t2 e => by
    have : ([] : List Event) = t1 ++ .installed u :: t2 := e
    simp at this

theorem replay_block : ∀ (ms : List Msg) (rs : List (List Ev)) {s : State} {h : Nat},
    s.handlers.Nodup → s.handlers3.Nodup → s.handlers ≠ [] → (replay s h ms rs).dead = false →
    ∃ t, Block s (replay s h ms rs) t (fun u => if h = u then ms else []) ∧
      (rs = [] → logged t = [] ∧ received h t = ms)
  | [], rs, s, h, _, _, _, _ => ⟨[], (Block.nil s).congr (fun u => by simp), fun _ => ⟨rfl, rfl⟩⟩
  | m :: ms, rs, s, h, hn, hn3, hne, hd => by
    rw [replay] at hd ⊢
    have hd1 : (logAll (s.emit (.deliver h m)) rs.head?.toList.flatten).dead = false :=
      alive (f := fun s (x : List (List Ev)) => replay s h ms x) (fun s a h' => replay_dead h' h ms a) hd
    have hd0 : s.dead = false := by
      have := alive (f := logAll) (fun s a h => logAll_dead h a) hd1
      rwa [emit_alive] at this
    have hb0 := emit_block hd0 h m
    have hb1 : ∃ t, Block (s.emit (.deliver h m))
        (logAll (s.emit (.deliver h m)) rs.head?.toList.flatten) t (fun _ => []) ∧
        (rs = [] → t = []) := by
      cases rs with
      | nil => exact ⟨[], by simpa [logAll] using Block.nil _, fun _ => rfl⟩
      | cons r rs =>
        obtain ⟨t, hb⟩ := logAll_block (List.flatten (List.head? (r :: rs)).toList)
          (s := s.emit (.deliver h m)) (by rw [hb0.handlers]; exact hn)
          (by rw [hb0.handlers3]; exact hn3) (by rw [hb0.handlers]; exact hne) hd1
        exact ⟨t, hb, fun e => nomatch e⟩
    obtain ⟨t1, hb1, ht1⟩ := hb1
    have hb01 := hb0.trans hb1
    obtain ⟨t2, hb2, hf⟩ := replay_block ms rs.tail
      (s := logAll (s.emit (.deliver h m)) rs.head?.toList.flatten) (h := h)
      (by rw [hb01.handlers]; exact hn) (by rw [hb01.handlers3]; exact hn3)
      (by rw [hb01.handlers]; exact hne) hd
    refine ⟨_, (hb01.trans hb2).congr ?_, ?_⟩
    · intro u
      by_cases e : h = u
      · simp [e]
      · simp [e]
    · intro e
      obtain ⟨f1, f2⟩ := hf (by rw [e]; rfl)
      rw [ht1 e, List.append_nil, logged_append, received_append, f1, f2]
      exact ⟨rfl, by simp [received]⟩

theorem add_added {R : List Msg → List Msg → Prop} {s : State} (h : Inv R s)
    (pos : Nat) (rs : List (List Ev)) (rw' : List Ev) (hd : (s.addHandler pos rs rw').dead = false)
    (hR : R = List.Perm ∨ (R = Eq ∧ rs = [] ∧ rw' = [])) :
    ∃ t, Added R s (s.addHandler pos rs rw') t := by
  have hd0 : s.dead = false := by
    cases hx : s.dead with
    | false => rfl
    | true => unfold State.addHandler at hd; rw [if_pos hx, hx] at hd; cases hd
  unfold State.addHandler at hd ⊢
  rw [if_neg (by simp [hd0])] at hd ⊢
  simp only at hd ⊢
  have hfh : s.next ∉ s.handlers := fun x => Nat.lt_irrefl _ (h.bound _ (.inl ((h.inst _).1 x).1))
  have hnd := nodup_insertAt (pos := pos) h.nodup hfh
  generalize hs1 : ({ s with handlers := insertAt pos s.next s.handlers, next := s.next + 1,
                             trace := s.trace ++ [.installed s.next] } : State) = s1 at hd ⊢
  have e1 : s1.handlers = insertAt pos s.next s.handlers := by rw [← hs1]
  have e2 : s1.handlers3 = s.handlers3 := by rw [← hs1]
  have e3 : s1.trace = s.trace ++ [.installed s.next] := by rw [← hs1]
  have e4 : s1.next = s.next + 1 := by rw [← hs1]
  have e5 : s1.next3 = s.next3 := by rw [← hs1]
  have hne : s1.handlers ≠ [] := by
    rw [e1]; unfold insertAt; simp
  have hnd1 : s1.handlers.Nodup := by rw [e1]; exact hnd
  have hnd3 : s1.handlers3.Nodup := by rw [e2]; exact h.nodup3
  generalize hs3 : (if s.stored.length = maxStored then
    logAll ((replay s1 s.next s.stored rs).emit (.deliver s.next discardedMsg)) rw'
    else replay s1 s.next s.stored rs) = s3 at hd ⊢
  have hd3 : s3.dead = false := by
    cases hx : s3.dead with
    | false => rfl
    | true => rw [if_pos hx, hx] at hd; cases hd
  rw [if_neg (by simp [hd3])]
  have hb : ∃ t, Block s1 s3 t (fun u => if s.next = u then backlog s else []) ∧
      (rs = [] → rw' = [] → logged t = [] ∧ received s.next t = backlog s) := by
    unfold backlog
    by_cases hm : s.stored.length = maxStored
    · rw [if_pos hm] at hs3
      have hd2' : ((replay s1 s.next s.stored rs).emit (.deliver s.next discardedMsg)).dead = false := by
        rw [← hs3] at hd3
        exact alive (f := logAll) (fun s a h => logAll_dead h a) hd3
      have hd2 : (replay s1 s.next s.stored rs).dead = false := by rwa [emit_alive] at hd2'
      obtain ⟨t, hb, hf⟩ := replay_block s.stored rs hnd1 hnd3 hne hd2
      have hb1 := emit_block hd2 s.next discardedMsg
      have hb01 := hb.trans hb1
      have hb2 : ∃ t, Block ((replay s1 s.next s.stored rs).emit (.deliver s.next discardedMsg)) s3 t
          (fun _ => []) ∧ (rw' = [] → t = []) := by
        cases rw' with
        | nil =>
          rw [logAll] at hs3
          exact ⟨[], by rw [← hs3]; exact Block.nil _, fun _ => rfl⟩
        | cons r l =>
          obtain ⟨t, hb⟩ := logAll_block (r :: l)
            (s := (replay s1 s.next s.stored rs).emit (.deliver s.next discardedMsg))
            (by rw [hb01.handlers]; exact hnd1) (by rw [hb01.handlers3]; exact hnd3)
            (by rw [hb01.handlers]; exact hne) (by rw [hs3]; exact hd3)
          rw [hs3] at hb
          exact ⟨t, hb, fun e => nomatch e⟩
      obtain ⟨t2, hb2, hf2⟩ := hb2
      refine ⟨_, (hb01.trans hb2).congr ?_, ?_⟩
      · intro u
        by_cases e : s.next = u
        · simp [e, hm]
        · simp [e]
      · intro g1 g2
        obtain ⟨f1, f2⟩ := hf g1
        rw [hf2 g2, List.append_nil, logged_append, received_append, f1, f2, if_pos hm]
        exact ⟨rfl, by simp [received]⟩
    · rw [if_neg hm] at hs3
      rw [← hs3] at hd3
      obtain ⟨t, hb, hf⟩ := replay_block s.stored rs hnd1 hnd3 hne hd3
      rw [hs3] at hb
      refine ⟨t, hb.congr ?_, ?_⟩
      · intro u; simp [hm]
      · intro g1 _
        rw [if_neg hm, List.append_nil]
        exact hf g1
  obtain ⟨t, hb, hf⟩ := hb
  refine ⟨t, ⟨pos, ?_⟩, ?_, ?_, ?_, ?_, hb.quiet, ?_, ?_, ?_, rfl⟩
  · rw [← e1]; exact hb.handlers
  · rw [← e4]; exact hb.next
  · rw [← e2]; exact hb.handlers3
  · rw [← e5]; exact hb.next3
  · show s3.trace = _
    rw [hb.trace, e3, List.append_assoc]; rfl
  · intro u hu
    have hune : s.next ≠ u := fun e => hfh (e ▸ hu)
    have := hb.recv u
    simp only [if_neg hune, List.nil_append] at this
    rw [e1, if_pos (mem_insertAt.2 (.inr hu))] at this
    rcases hR with rfl | ⟨rfl, g1, g2⟩
    · exact this
    · rw [(hf g1 g2).1] at this ⊢
      exact this.eq_nil
  · have := hb.recv s.next
    simp only [if_true] at this
    rw [e1, if_pos (mem_insertAt.2 (.inl rfl))] at this
    rcases hR with rfl | ⟨rfl, g1, g2⟩
    · exact this
    · obtain ⟨f1, f2⟩ := hf g1 g2
      rw [f1, f2, List.append_nil]
  · intro u hu hune
    have := hb.recv u
    rw [e1] at this
    have hni : u ∉ insertAt pos s.next s.handlers := by
      rw [mem_insertAt]; rintro (e | e)
      · exact hune e
      · exact hu e
    simp only [if_neg (fun e => hune (Eq.symm e) : ¬ s.next = u), if_neg hni] at this
    exact this.eq_nil

theorem log_quietly {R : List Msg → List Msg → Prop} {s : State} (h : Inv R s) (e : Ev)
    (hd : (s.logMsg e).dead = false) (hR : R = List.Perm ∨ (R = Eq ∧ Flat (.log e))) :
    ∃ t, Quietly R s (s.logMsg e) t := by
  obtain ⟨_, t, hb, h1, h2⟩ := logMsg_block e h.nodup h.nodup3 hd
  refine ⟨t, hb.handlers, hb.next, by rw [hb.handlers3]; exact h.nodup3,
    by rw [hb.handlers3, hb.next3]; exact h.lt3, hb.trace, hb.quiet, ?_, ?_, hb.stored, h2⟩
  · intro u hu
    have := hb.recv u
    rw [if_pos hu, List.nil_append] at this
    rcases hR with rfl | ⟨rfl, hf⟩
    · exact this
    · obtain ⟨m, hm⟩ := h1 (.inr hf)
      rw [hm] at this ⊢
      exact List.perm_singleton.1 this
  · intro u hu
    have := hb.recv u
    rw [if_neg hu] at this
    exact this.eq_nil

theorem same_quietly {R : List Msg → List Msg → Prop} (hR : GoodRel R) {s s' : State} {t : List Event}
    (e1 : s'.handlers = s.handlers) (e2 : s'.next = s.next) (e3 : s'.handlers3.Nodup)
    (e4 : ∀ h ∈ s'.handlers3, h < s'.next3) (e5 : s'.trace = s.trace ++ t) (e6 : Quiet t)
    (e7 : logged t = []) (e8 : ∀ u, received u t = []) (e9 : s'.stored = s.stored) :
    Quietly R s s' t :=
  ⟨e1, e2, e3, e4, e5, e6, (fun u _ => by rw [e7, e8]; exact hR.refl _), fun u _ => e8 u,
    fun _ => e9, fun _ => by
      rw [e7, e9, List.append_nil, List.take_of_length_le (Nat.le_max_right ..)]⟩

theorem step_inv {R : List Msg → List Msg → Prop} (hR : GoodRel R) {s : State} (h : Inv R s)
    (x : Call) (hd : (s.step x).dead = false) (hx : R = List.Perm ∨ (R = Eq ∧ Flat x)) :
    Inv R (s.step x) := by
  have hd0 : s.dead = false := alive (f := State.step) (fun s a h => step_dead h a) hd
  cases x with
  | log e =>
    obtain ⟨t, q⟩ := log_quietly h e hd hx
    exact quietly_inv hR h q
  | log3 m =>
    have e : s.step (.log3 m) = { s with trace := s.trace ++ (.logged3 m ::
        s.handlers3.map (fun h => .deliver3 h m)) } := by
      show s.logMsg3 m = _
      unfold State.logMsg3 State.log3 State.emit
      rw [if_neg (by simp [hd0]),
        emitAll3_obs (s := { s with trace := s.trace ++ [.logged3 m] }) hd0]
      simp
    rw [e]
    obtain ⟨_, b2, _, b3, _⟩ := map_deliver3 m s.handlers3 h.nodup3
    refine quietly_inv hR h (same_quietly hR (t := .logged3 m :: s.handlers3.map (fun h => .deliver3 h m))
      rfl rfl h.nodup3 h.lt3 rfl ?_ ?_ ?_ rfl)
    · intro u; simp
    · exact b2
    · intro u; exact b3 u
  | add p rs rw' =>
    obtain ⟨t, q⟩ := add_added h p rs rw' hd hx
    exact added_inv hR h q
  | remove u => exact removed_inv h hd0 u
  | close => exact (removeAll_inv h hd0 rfl).1
  | add3 =>
    have e : s.step .add3 = { s with handlers3 := s.handlers3 ++ [s.next3], next3 := s.next3 + 1 } := by
      show s.add3 = _
      unfold State.add3
      rw [if_neg (by simp [hd0])]
    rw [e]
    refine quietly_inv hR h (same_quietly hR (t := []) rfl rfl ?_ ?_ (List.append_nil _).symm
      (fun u => by simp) rfl (fun _ => rfl) rfl)
    · rw [List.nodup_append]
      refine ⟨h.nodup3, by simp, ?_⟩
      intro a ha b hb
      have := h.lt3 a ha
      simp only [List.mem_cons, List.not_mem_nil, or_false] at hb
      omega
    · intro a ha
      rcases List.mem_append.1 ha with ha | ha
      · have := h.lt3 a ha; show a < s.next3 + 1; omega
      · simp only [List.mem_cons, List.not_mem_nil, or_false] at ha
        show a < s.next3 + 1; omega
  | remove3 u =>
    have e : s.step (.remove3 u) = { s with handlers3 := s.handlers3.erase u } := by
      show s.remove3 u = _
      unfold State.remove3
      rw [if_neg (by simp [hd0])]
    rw [e]
    exact quietly_inv hR h (same_quietly hR (t := []) rfl rfl (h.nodup3.erase u)
      (fun a ha => h.lt3 a (List.mem_of_mem_erase ha)) (List.append_nil _).symm
      (fun u => by simp) rfl (fun _ => rfl) rfl)
  | set3 i =>
    have e : ∃ l n g, s.step (.set3 i) = { s with handlers3 := l, next3 := n, global3 := g } ∧ l.Nodup ∧
        ∀ a ∈ l, a < n := by
      show ∃ l n g, s.set3 i = _ ∧ _
      unfold State.set3
      rw [if_neg (by simp [hd0])]
      have key : ∀ l : List Nat, l.Nodup → (∀ a ∈ l, a < s.next3) → (l ++ [s.next3]).Nodup ∧
          ∀ a ∈ l ++ [s.next3], a < s.next3 + 1 := by
        intro l h1 h2
        constructor
        · rw [List.nodup_append]
          refine ⟨h1, by simp, ?_⟩
          intro a ha b hb
          have := h2 a ha
          simp only [List.mem_cons, List.not_mem_nil, or_false] at hb
          omega
        · intro a ha
          rcases List.mem_append.1 ha with ha | ha
          · have := h2 a ha; omega
          · simp only [List.mem_cons, List.not_mem_nil, or_false] at ha
            omega
      cases hg : s.global3 with
      | none =>
        simp only
        split
        · exact ⟨_, _, _, rfl, key _ h.nodup3 h.lt3⟩
        · exact ⟨s.handlers3, s.next3, s.global3, rfl, h.nodup3, h.lt3⟩
      | some g =>
        simp only
        have h1 := h.nodup3.erase g
        have h2 : ∀ a ∈ s.handlers3.erase g, a < s.next3 :=
          fun a ha => h.lt3 a (List.mem_of_mem_erase ha)
        split
        · exact ⟨_, _, _, rfl, key _ h1 h2⟩
        · exact ⟨_, s.next3, none, rfl, h1, h2⟩
    obtain ⟨l, n, g, e, h1, h2⟩ := e
    rw [e]
    exact quietly_inv hR h (same_quietly hR (t := []) rfl rfl h1 h2 (List.append_nil _).symm
      (fun u => by simp) rfl (fun _ => rfl) rfl)

theorem run_inv {R : List Msg → List Msg → Prop} (hR : GoodRel R) :
    ∀ {xs : List Call} {s : State}, Inv R s → (s.run xs).dead = false →
      (∀ x ∈ xs, R = List.Perm ∨ (R = Eq ∧ Flat x)) → Inv R (s.run xs)
  | [], _, h, _, _ => h
  | x :: t, s, h, hd, hx => by
    rw [State.run] at hd ⊢
    have hd1 : (s.step x).dead = false := alive (f := State.run) (fun s a h => run_dead h a) hd
    exact run_inv hR (step_inv hR h x hd1 (hx x (List.mem_cons_self ..))) hd
      (fun y hy => hx y (List.mem_cons_of_mem _ hy))

/-! ## Further facts -/

/-- The trace of a call of `logMessage` starts with the message. -/
theorem logMsg_start {s : State} (m : Msg) (rs : List (List Ev)) (hn : s.handlers.Nodup)
    (hn3 : s.handlers3.Nodup) (hd : (s.logMsg (.log m rs)).dead = false) :
    ∃ t, (s.logMsg (.log m rs)).trace = s.trace ++ .logged m :: t := by
  have hd0 : s.dead = false := alive (f := State.logMsg) (fun s a h => logMsg_dead h a) hd
  rw [State.logMsg, if_neg (by simp [hd0])] at hd ⊢
  have hd1 : (deliver (s.emit (.logged m)) m s.handlers rs).dead = false := by
    cases h : (deliver (s.emit (.logged m)) m s.handlers rs).dead with
    | false => rfl
    | true =>
      rw [store_dead h, pass3_dead h] at hd
      unfold State.terminate at hd
      split at hd
      · cases hd
      · rw [h] at hd; cases hd
  have he : s.emit (.logged m) = { s with trace := s.trace ++ [.logged m] } := by
    unfold State.emit; rw [hd0, if_neg (by simp)]
  obtain ⟨_, t, hb, _⟩ := deliver_block rs m s.handlers (s := s.emit (.logged m))
    (by rw [he]; exact hn) (by rw [he]; exact hn3) hn (by rw [he]; exact fun _ h => h) hd1
  have hh3 : (deliver (s.emit (.logged m)) m s.handlers rs).handlers3 = s.handlers3 := by
    rw [hb.handlers3, he]
  obtain ⟨_, t', _, _, _, _, _, a6, _⟩ := finish_block hd1 (by rw [hh3]; exact hn3) rfl hd
  refine ⟨t ++ t', ?_⟩
  rw [a6, hb.trace, he]
  simp

theorem fatal_all {R : List Msg → List Msg → Prop} {s : State} (hi : Inv R s) (hd : s.dead = false)
    (m : Msg) (hf : m.type = mtFatal) :
    (s.logMsg (.log m [])).dead = true ∧ ∃ t, (s.logMsg (.log m [])).trace = s.trace ++ .logged m :: t ∧
      ∀ u, Installed s.trace u → received u t = [m] := by
  rw [State.logMsg, if_neg (by simp [hd]), deliver]
  have he : s.emit (.logged m) = { s with trace := s.trace ++ [.logged m] } := by
    unfold State.emit; rw [hd, if_neg (by simp)]
  rw [he]
  obtain ⟨t, hb, hd1, _⟩ := emitAll_block (m := m) (hs := s.handlers)
    (s := { s with trace := s.trace ++ [.logged m] }) hi.nodup hd
  generalize hs1 : emitAll { s with trace := s.trace ++ [.logged m] } m s.handlers = s1 at hb hd1
  have hst : ∃ l, s1.store m = { s1 with stored := l } := by
    unfold State.store
    rw [if_neg (by simp [hd1])]
    split
    · exact ⟨_, rfl⟩
    · exact ⟨s1.stored, rfl⟩
  obtain ⟨l, hst⟩ := hst
  have hp : ∃ t', ({ s1 with stored := l } : State).pass3 m =
      { s1 with stored := l, trace := s1.trace ++ t' } ∧ ∀ u, received u t' = [] := by
    unfold State.pass3
    cases type3 m.type with
    | none => exact ⟨[], by simp, fun _ => rfl⟩
    | some ty =>
      simp only
      unfold State.log3
      rw [emitAll3_obs (s := { s1 with stored := l }) hd1]
      refine ⟨_, rfl, ?_⟩
      intro u
      exact not_mem_received (fun m hm => by simp at hm)
  obtain ⟨t', hp, hr⟩ := hp
  rw [hst, hp]
  unfold State.terminate
  rw [if_pos hf]
  refine ⟨rfl, t ++ t', ?_, ?_⟩
  · show s1.trace ++ t' = _
    rw [hb.trace]
    simp
  · intro u hu
    rw [received_append, hr, List.append_nil]
    have := hb.recv u
    have hm := (hi.inst u).2 hu
    simp only [hm, if_true] at this
    have hl : logged t = [] := by
      next ht => rw [ht]; simp [logged, List.filterMap_map]
    rw [hl] at this
    exact List.perm_singleton.1 this

theorem removeAll_keeps {e : Event} : ∀ (n : Nat) (s : State), e ∈ s.trace → e ∈ (removeAll n s).trace
  | 0, _, h => h
  | n + 1, s, h => by
    unfold removeAll
    split
    · exact h
    · refine removeAll_keeps n _ ?_
      unfold State.removeHandler
      split
      · exact h
      · split
        · exact List.mem_append.2 (.inl h)
        · exact h

end VS.Log
