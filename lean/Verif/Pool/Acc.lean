import Verif.Pool.Model

/-!
# Accounting of computations

Every computation is in one of the lists of the scheduler, waits for answers, or is over.
-/

namespace VS.Pool

variable {F L : Type}

/-- Everything some worker can go on with. -/
def State.lists (s : State F L) : List Nat :=
  s.tasks ++ (s.alt ++ (s.running.map Job.c ++ (s.finished.map Prod.fst ++ s.returning.map Prod.fst)))

/-- The answers still owed to a computation. -/
def owed (ctx : Nat → Ctx F L) (all : List (Key × Nat)) (x : Nat) : Nat :=
  (all.map fun e => (ctx e.2).notify.count x).sum

/-- The callback of the request was called. -/
def Answered (t : List (Event F)) (c : Nat) : Prop := ∃ k r, .callback c k r ∈ t

/-- `extra` are answers that are being given or requests that are being made. -/
structure Acc (g : Graph F L) (s : State F L) (extra : List Nat) : Prop where
  nodup : s.lists.Nodup
  lt : ∀ c ∈ s.lists, c < s.next
  blank : ∀ c, s.next ≤ c → s.ctx c = Ctx.blank g.init
  keys : (s.all.map Prod.fst).Nodup
  all_ok : ∀ e ∈ s.all, e.2 < s.next ∧ (s.ctx e.2).key = e.1 ∧ (s.ctx e.2).external = false
  bal : ∀ x, (s.ctx x).pending = extra.count x + owed s.ctx s.all x
  idle : ∀ c ∈ s.lists, (s.ctx c).pending = 0
  mem_all : ∀ c, (s.ctx c).external = false → (c ∈ s.lists ∨ 0 < (s.ctx c).pending) →
    ((s.ctx c).key, c) ∈ s.all
  live : ∀ e ∈ s.all, e.2 ∈ s.lists ∨ 0 < (s.ctx e.2).pending
  ext_notify : ∀ c, (s.ctx c).external = true → (s.ctx c).notify = []
  ret_ext : ∀ p ∈ s.returning, (s.ctx p.1).external = true
  answered : ∀ c, c < s.next → (s.ctx c).external = true →
    c ∈ s.lists ∨ 0 < (s.ctx c).pending ∨ Answered s.trace c
  ans_out : ∀ c, Answered s.trace c → (s.ctx c).external = true ∧ c ∉ s.lists ∧ (s.ctx c).pending = 0
  first_ok : ∀ c, (s.ctx c).first = true → (s.ctx c).pending = 0 ∧
    ((s.ctx c).external = false → (s.ctx c).error = none) ∧
    ((s.ctx c).external = true → (s.ctx c).error = g.requestError (s.ctx c).key) ∧
    ((s.ctx c).error = none → (s.ctx c).avail = [] ∧ (s.ctx c).loc = g.init)
  first_run : ∀ c, (s.ctx c).first = true → (c ∈ s.running.map Job.c ∨ c ∈ s.finished.map Prod.fst) →
    (s.ctx c).error.isSome = true

theorem upd_self {α : Type} (f : Nat → α) (i : Nat) (x : α) : upd f i x i = x := by simp [upd]

theorem upd_ne {α : Type} (f : Nat → α) {i j : Nat} (x : α) (h : j ≠ i) : upd f i x j = f j := by
  simp [upd, h]

theorem Acc.lt_of_pending {g : Graph F L} {s : State F L} {l : List Nat} (h : Acc g s l) {c : Nat}
    (hp : 0 < (s.ctx c).pending) : c < s.next := by
  refine Nat.lt_of_not_le (fun hn => ?_)
  rw [h.blank c hn] at hp
  exact absurd hp (Nat.lt_irrefl 0)

theorem Acc.out_of_pending {g : Graph F L} {s : State F L} {l : List Nat} (h : Acc g s l) {c : Nat}
    (hp : 0 < (s.ctx c).pending) : c ∉ s.lists := by
  intro hx
  rw [h.idle c hx] at hp
  exact absurd hp (Nat.lt_irrefl 0)

theorem Acc.unique {g : Graph F L} {s : State F L} {l : List Nat} (h : Acc g s l) {k k' : Key} {d : Nat}
    (h1 : (k, d) ∈ s.all) (h2 : (k', d) ∈ s.all) : k = k' :=
  (h.all_ok _ h1).2.1.symm.trans (h.all_ok _ h2).2.1

/-- Changes that leave the bookkeeping alone. -/
structure Same (x y : Ctx F L) : Prop where
  key : y.key = x.key
  external : y.external = x.external
  notify : y.notify = x.notify
  first : y.first = x.first
  reqs : y.reqs = x.reqs
  loc : y.loc = x.loc
  order : y.order = x.order

theorem Same.refl (x : Ctx F L) : Same x x := ⟨rfl, rfl, rfl, rfl, rfl, rfl, rfl⟩

theorem Same.trans {x y z : Ctx F L} (h : Same x y) (h' : Same y z) : Same x z :=
  ⟨h'.key.trans h.key, h'.external.trans h.external, h'.notify.trans h.notify,
    h'.first.trans h.first, h'.reqs.trans h.reqs, h'.loc.trans h.loc, h'.order.trans h.order⟩

/-- What an answer may change. -/
def Keeps (f : Ctx F L → Ctx F L) : Prop := ∀ x, Same x (f x) ∧ (f x).pending = x.pending

theorem answer_keeps (k : Key) (r : Except String F) : Keeps (fun (y : Ctx F L) => y.answer k r) := by
  intro x
  cases r with
  | ok f => exact ⟨⟨rfl, rfl, rfl, rfl, rfl, rfl, rfl⟩, rfl⟩
  | error m => exact ⟨⟨rfl, rfl, rfl, rfl, rfl, rfl, rfl⟩, rfl⟩

theorem owed_congr {ctx ctx' : Nat → Ctx F L} {all : List (Key × Nat)} {x : Nat}
    (h : ∀ e ∈ all, (ctx' e.2).notify = (ctx e.2).notify) : owed ctx' all x = owed ctx all x := by
  unfold owed
  congr 1
  refine List.map_congr_left ?_
  intro e he
  rw [h e he]

theorem owed_pos {ctx : Nat → Ctx F L} {all : List (Key × Nat)} {x : Nat} (h : 0 < owed ctx all x) :
    ∃ e ∈ all, x ∈ (ctx e.2).notify := by
  unfold owed at h
  induction all with
  | nil => simp at h
  | cons a l ih =>
    rw [List.map_cons, List.sum_cons] at h
    by_cases hc : 0 < (ctx a.2).notify.count x
    · exact ⟨a, List.mem_cons_self .., List.count_pos_iff.1 hc⟩
    · obtain ⟨e, he, hx⟩ := ih (by omega)
      exact ⟨e, List.mem_cons_of_mem _ he, hx⟩

theorem owed_ge {ctx : Nat → Ctx F L} {all : List (Key × Nat)} {x : Nat} {e : Key × Nat}
    (he : e ∈ all) (hx : x ∈ (ctx e.2).notify) : 0 < owed ctx all x := by
  unfold owed
  induction all with
  | nil => cases he
  | cons a l ih =>
    rw [List.map_cons, List.sum_cons]
    rcases List.mem_cons.1 he with rfl | he
    · have := List.count_pos_iff.2 hx; omega
    · have := ih he; omega

/-- The lists after one answer. -/
theorem notifyOne_acc {g : Graph F L} {s : State F L} {l : List Nat} {c : Nat} {f : Ctx F L → Ctx F L}
    (hf : Keeps f) (h : Acc g s (c :: l)) : Acc g (s.notifyOne f c) l := by
  have hpos : 0 < (s.ctx c).pending := by
    rw [h.bal c, List.count_cons_self]; omega
  have hout := h.out_of_pending hpos
  have hlt := h.lt_of_pending hpos
  obtain ⟨hs, hp⟩ := hf (s.ctx c)
  have hnf : (s.ctx c).first = false := by
    cases hx : (s.ctx c).first with
    | false => rfl
    | true => have := (h.first_ok c hx).1; omega
  unfold State.notifyOne
  simp only [hp]
  generalize hy : ({ f (s.ctx c) with pending := (s.ctx c).pending - 1 } : Ctx F L) = y
  have hys : Same (s.ctx c) y := by rw [← hy]; exact ⟨hs.1, hs.2, hs.3, hs.4, hs.5, hs.6, hs.7⟩
  have hyp : y.pending = (s.ctx c).pending - 1 := by rw [← hy]
  have hctx : ∀ x, Same (s.ctx x) ((s.setCtx c y).ctx x) := by
    intro x
    by_cases e : x = c
    · subst e; show Same _ (upd s.ctx x y x); rw [upd_self]; exact hys
    · show Same _ (upd s.ctx c y x); rw [upd_ne _ _ e]; exact .refl _
  have hpe : ∀ x, ((s.setCtx c y).ctx x).pending = if x = c then (s.ctx c).pending - 1
      else (s.ctx x).pending := by
    intro x
    by_cases e : x = c
    · subst e; show (upd s.ctx x y x).pending = _; rw [upd_self, if_pos rfl]; exact hyp
    · show (upd s.ctx c y x).pending = _; rw [upd_ne _ _ e, if_neg e]
  have hre : ∀ x, x ≠ c → (s.setCtx c y).ctx x = s.ctx x := fun x e => upd_ne _ _ e
  have hbal : ∀ x, ((s.setCtx c y).ctx x).pending = l.count x + owed (s.setCtx c y).ctx s.all x := by
    intro x
    rw [hpe, owed_congr (fun e _ => (hctx e.2).notify)]
    have hb := h.bal x
    by_cases e : x = c
    · subst e
      rw [if_pos rfl]
      rw [List.count_cons_self] at hb; omega
    · rw [if_neg e]
      rw [List.count_cons_of_ne (fun a => e a.symm)] at hb; exact hb
  have hfo : ∀ x, ((s.setCtx c y).ctx x).first = true →
      x ≠ c ∧ (s.ctx x).first = true := by
    intro x hx
    refine ⟨?_, (hctx x).first ▸ hx⟩
    rintro rfl
    rw [(hctx x).first, hnf] at hx; cases hx
  split
  · next hz =>
    -- the computation is queued
    have hl : ((s.setCtx c y).queue c).lists = c :: s.lists := rfl
    refine ⟨?_, ?_, ?_, h.keys, ?_, hbal, ?_, ?_, ?_, ?_, ?_, ?_, ?_, ?_, ?_⟩
    · rw [hl]; exact List.nodup_cons.2 ⟨hout, h.nodup⟩
    · rw [hl]; intro x hx
      rcases List.mem_cons.1 hx with rfl | hx
      · exact hlt
      · exact h.lt x hx
    · intro x hx
      have : x ≠ c := fun e => by subst e; exact absurd hlt (Nat.not_lt.2 hx)
      show (s.setCtx c y).ctx x = _
      rw [hre x this]; exact h.blank x hx
    · intro e he
      obtain ⟨h1, h2, h3⟩ := h.all_ok e he
      exact ⟨h1, (hctx e.2).key.trans h2, (hctx e.2).external.trans h3⟩
    · rw [hl]; intro x hx
      show ((s.setCtx c y).ctx x).pending = 0
      rw [hpe]
      split
      · exact hz
      · next e => exact h.idle x ((List.mem_cons.1 hx).resolve_left e)
    · intro x hx hor
      have hx' : (s.ctx x).external = false := (hctx x).external ▸ hx
      show (((s.setCtx c y).ctx x).key, x) ∈ s.all
      rw [(hctx x).key]
      refine h.mem_all x hx' ?_
      by_cases e : x = c
      · subst e; exact .inr hpos
      · rcases hor with hor | hor
        · rw [hl] at hor; exact .inl ((List.mem_cons.1 hor).resolve_left e)
        · right
          have : 0 < ((s.setCtx c y).ctx x).pending := hor
          rwa [hre x e] at this
    · intro e he
      rw [hl]
      by_cases ec : e.2 = c
      · exact .inl (by rw [ec]; exact List.mem_cons_self ..)
      · rcases h.live e he with h1 | h1
        · exact .inl (List.mem_cons_of_mem _ h1)
        · right
          show 0 < ((s.setCtx c y).ctx e.2).pending
          rw [hre _ ec]; exact h1
    · intro x hx
      exact (hctx x).notify.trans (h.ext_notify x ((hctx x).external ▸ hx))
    · intro p hp
      exact (hctx p.1).external.trans (h.ret_ext p hp)
    · intro x hx he
      rw [hl]
      by_cases e : x = c
      · exact .inl (by rw [e]; exact List.mem_cons_self ..)
      · rcases h.answered x hx ((hctx x).external ▸ he) with h1 | h1 | h1
        · exact .inl (List.mem_cons_of_mem _ h1)
        · right; left
          show 0 < ((s.setCtx c y).ctx x).pending
          rw [hre x e]; exact h1
        · exact .inr (.inr h1)
    · intro x hx
      obtain ⟨h1, h2, h3⟩ := h.ans_out x hx
      have e : x ≠ c := by rintro rfl; omega
      refine ⟨(hctx x).external.trans h1, ?_, ?_⟩
      · rw [hl]; simp only [List.mem_cons, not_or]; exact ⟨e, h2⟩
      · show ((s.setCtx c y).ctx x).pending = 0
        rw [hre x e]; exact h3
    · intro x hx
      obtain ⟨e, hx'⟩ := hfo x hx
      have := h.first_ok x hx'
      rw [show ((s.setCtx c y).queue c).ctx x = s.ctx x from hre x e]
      exact this
    · intro x hx
      obtain ⟨e, hx'⟩ := hfo x hx
      rw [show ((s.setCtx c y).queue c).ctx x = s.ctx x from hre x e]
      exact h.first_run x hx'
  · next hz =>
    have hl : (s.setCtx c y).lists = s.lists := rfl
    refine ⟨h.nodup, h.lt, ?_, h.keys, ?_, hbal, ?_, ?_, ?_, ?_, ?_, ?_, ?_, ?_, ?_⟩
    · intro x hx
      have : x ≠ c := fun e => by subst e; exact absurd hlt (Nat.not_lt.2 hx)
      rw [hre x this]; exact h.blank x hx
    · intro e he
      obtain ⟨h1, h2, h3⟩ := h.all_ok e he
      exact ⟨h1, (hctx e.2).key.trans h2, (hctx e.2).external.trans h3⟩
    · intro x hx
      have e : x ≠ c := by rintro rfl; exact hout hx
      rw [hre x e]; exact h.idle x hx
    · intro x hx hor
      have hx' : (s.ctx x).external = false := (hctx x).external ▸ hx
      show (((s.setCtx c y).ctx x).key, x) ∈ s.all
      rw [(hctx x).key]
      refine h.mem_all x hx' ?_
      by_cases e : x = c
      · subst e; exact .inr hpos
      · rw [hre x e] at hor; exact hor
    · intro e he
      by_cases ec : e.2 = c
      · right; rw [hpe, if_pos ec]; omega
      · rw [hre _ ec]; exact h.live e he
    · intro x hx
      exact (hctx x).notify.trans (h.ext_notify x ((hctx x).external ▸ hx))
    · intro p hp
      exact (hctx p.1).external.trans (h.ret_ext p hp)
    · intro x hx he
      by_cases e : x = c
      · right; left; rw [hpe, if_pos e]; omega
      · rw [hre x e] at he ⊢
        exact h.answered x hx he
    · intro x hx
      obtain ⟨h1, h2, h3⟩ := h.ans_out x hx
      have e : x ≠ c := by rintro rfl; omega
      rw [hre x e]
      exact ⟨h1, h2, h3⟩
    · intro x hx
      obtain ⟨e, hx'⟩ := hfo x hx
      rw [hre x e]
      exact h.first_ok x hx'
    · intro x hx
      obtain ⟨e, hx'⟩ := hfo x hx
      rw [hre x e]
      exact h.first_run x hx'

theorem notifyAll_acc {g : Graph F L} {f : Ctx F L → Ctx F L} (hf : Keeps f) :
    ∀ {l : List Nat} {s : State F L}, Acc g s l → Acc g (s.notifyAll f l) []
  | [], _, h => h
  | c :: t, s, h => notifyAll_acc (l := t) hf (notifyOne_acc hf h)

/-- Only the order of the lists changes, or work moves from one list to another. -/
theorem Acc.move {g : Graph F L} {s s' : State F L} {l : List Nat} (h : Acc g s l)
    (hctx : s'.ctx = s.ctx) (hnext : s'.next = s.next) (hall : s'.all = s.all)
    (htr : ∀ c, Answered s'.trace c ↔ Answered s.trace c) (hl : List.Perm s'.lists s.lists)
    (hret : ∀ p ∈ s'.returning, (s.ctx p.1).external = true)
    (hfirst : ∀ c, (s.ctx c).first = true →
      (c ∈ s'.running.map Job.c ∨ c ∈ s'.finished.map Prod.fst) → (s.ctx c).error.isSome = true) :
    Acc g s' l where
  nodup := hl.nodup_iff.2 h.nodup
  lt := fun c hc => by rw [hnext]; exact h.lt c (hl.mem_iff.1 hc)
  blank := by rw [hctx, hnext]; exact h.blank
  keys := by rw [hall]; exact h.keys
  all_ok := by rw [hctx, hall, hnext]; exact h.all_ok
  bal := by rw [hctx, hall]; exact h.bal
  idle := fun c hc => by rw [hctx]; exact h.idle c (hl.mem_iff.1 hc)
  mem_all := fun c hc ho => by
    rw [hctx] at hc ho ⊢
    rw [hall]
    rw [hl.mem_iff] at ho
    exact h.mem_all c hc ho
  live := fun e he => by
    rw [hctx, hl.mem_iff]
    rw [hall] at he
    exact h.live e he
  ext_notify := by rw [hctx]; exact h.ext_notify
  ret_ext := fun p hp => by rw [hctx]; exact hret p hp
  answered := fun c hc he => by
    rw [hctx] at he ⊢
    rw [hnext] at hc
    rw [hl.mem_iff, htr]
    exact h.answered c hc he
  ans_out := fun c hc => by
    rw [hctx, hl.mem_iff]
    exact h.ans_out c ((htr c).1 hc)
  first_ok := by rw [hctx]; exact h.first_ok
  first_run := by rw [hctx]; exact hfirst

theorem insertBy_perm (lt : Nat → Nat → Bool) (a : Nat) : ∀ l, List.Perm (insertBy lt a l) (a :: l)
  | [] => List.Perm.refl _
  | b :: t => by
    unfold insertBy
    split
    · exact ((insertBy_perm lt a t).cons b).trans (List.Perm.swap a b t)
    · exact List.Perm.refl _

theorem sortBy_perm (lt : Nat → Nat → Bool) : ∀ l, List.Perm (sortBy lt l) l
  | [] => List.Perm.refl _
  | a :: t => (insertBy_perm lt a _).trans ((sortBy_perm lt t).cons a)

theorem sort_acc {g : Graph F L} {s : State F L} {l : List Nat} (h : Acc g s l) : Acc g s.sort l := by
  have hp : List.Perm s.sort.tasks s.tasks := sortBy_perm ..
  refine h.move rfl rfl rfl (fun _ => Iff.rfl) (hp.append_right _) h.ret_ext h.first_run

/-! ## New computations -/

theorem lookup_some {α : Type} {all : List (Key × α)} {k : Key} {d : α} (h : all.lookup k = some d) :
    (k, d) ∈ all := by
  induction all with
  | nil => cases h
  | cons a t ih =>
    obtain ⟨k', d'⟩ := a
    rw [List.lookup_cons] at h
    split at h
    · next e =>
      have : k = k' := by simpa using e
      injection h with h
      rw [this, h]; exact List.mem_cons_self ..
    · exact List.mem_cons_of_mem _ (ih h)

theorem lookup_none {all : List (Key × Nat)} {k : Key} (h : all.lookup k = none) :
    k ∉ all.map Prod.fst := by
  induction all with
  | nil => simp
  | cons a t ih =>
    obtain ⟨k', d'⟩ := a
    rw [List.lookup_cons] at h
    split at h
    · cases h
    · next e =>
      rw [List.map_cons, List.mem_cons, not_or]
      refine ⟨?_, ih h⟩
      simpa using e

theorem owed_add {ctx : Nat → Ctx F L} {all : List (Key × Nat)} {k : Key} {d : Nat} {y : Ctx F L} {c : Nat}
    (hn : (all.map Prod.fst).Nodup) (hk : ∀ e ∈ all, (ctx e.2).key = e.1) (hd : (k, d) ∈ all)
    (hy : y.notify = (ctx d).notify ++ [c]) (x : Nat) :
    owed (upd ctx d y) all x = owed ctx all x + [c].count x := by
  unfold owed
  induction all with
  | nil => cases hd
  | cons a t ih =>
    rw [List.map_cons, List.nodup_cons] at hn
    rw [List.map_cons, List.sum_cons, List.map_cons, List.sum_cons]
    rcases List.mem_cons.1 hd with e | hd'
    · subst e
      rw [upd_self, hy, List.count_append]
      have : t.map (fun e => (upd ctx d y e.2).notify.count x) = t.map (fun e => (ctx e.2).notify.count x) := by
        refine List.map_congr_left ?_
        intro e he
        have hne : e.2 ≠ d := by
          intro ed
          have h1 := hk e (List.mem_cons_of_mem _ he)
          have h2 := hk (k, d) hd
          rw [ed] at h1
          exact hn.1 (List.mem_map.2 ⟨e, he, h1.symm.trans h2⟩)
        rw [upd_ne _ _ hne]
      rw [this]; simp only; omega
    · have hne : a.2 ≠ d := by
        intro ed
        have h1 := hk a (List.mem_cons_self ..)
        have h2 := hk (k, d) hd
        rw [ed] at h1
        exact hn.1 (List.mem_map.2 ⟨(k, d), hd', h2.symm.trans h1⟩)
      rw [upd_ne _ _ hne, ih hn.2 (fun e he => hk e (List.mem_cons_of_mem _ he)) hd']
      omega

theorem answered_append {t t' : List (Event F)} {c : Nat} (h : ∀ k r, .callback c k r ∉ t') :
    Answered (t ++ t') c ↔ Answered t c := by
  constructor
  · rintro ⟨k, r, hx⟩
    rcases List.mem_append.1 hx with hx | hx
    · exact ⟨k, r, hx⟩
    · exact absurd hx (h k r)
  · rintro ⟨k, r, hx⟩
    exact ⟨k, r, List.mem_append.2 (.inl hx)⟩

theorem attach_acc {g : Graph F L} {s : State F L} {l : List Nat} {c : Nat} {k : Key}
    (h : Acc g s (c :: l)) : Acc g (s.attach g c k) l := by
  have hpos : 0 < (s.ctx c).pending := by
    rw [h.bal c, List.count_cons_self]; omega
  have hclt := h.lt_of_pending hpos
  unfold State.attach
  cases hk : s.all.lookup k with
  | some d =>
    simp only
    have hd := lookup_some hk
    obtain ⟨hdlt, hdk, hde⟩ := h.all_ok _ hd
    simp only at hdlt hdk hde
    generalize hy : ({ s.ctx d with
      notify := (s.ctx d).notify ++ [c], order := min (s.ctx d).order (s.ctx c).order } : Ctx F L) = y
    have y1 : y.key = (s.ctx d).key := by rw [← hy]
    have y2 : y.external = false := by rw [← hy]; exact hde
    have y3 : y.pending = (s.ctx d).pending := by rw [← hy]
    have y4 : y.first = (s.ctx d).first := by rw [← hy]
    have y5 : y.notify = (s.ctx d).notify ++ [c] := by rw [← hy]
    have y6 : y.avail = (s.ctx d).avail := by rw [← hy]
    have y8 : y.error = (s.ctx d).error := by rw [← hy]
    have y9 : y.loc = (s.ctx d).loc := by rw [← hy]
    have hself : ((s.setCtx d y).emit (.attach c k d)).ctx d = y := upd_self ..
    have hne : ∀ x, x ≠ d → ((s.setCtx d y).emit (.attach c k d)).ctx x = s.ctx x :=
      fun x e => upd_ne _ _ e
    have htr : ∀ x, Answered ((s.setCtx d y).emit (.attach c k d)).trace x ↔ Answered s.trace x :=
      fun x => answered_append (fun _ _ => by simp)
    refine ⟨h.nodup, h.lt, ?_, h.keys, ?_, ?_, ?_, ?_, ?_, ?_, ?_, ?_, ?_, ?_, ?_⟩
    · intro x hx
      have : x ≠ d := fun e => by subst e; exact absurd hdlt (Nat.not_lt.2 hx)
      rw [hne x this]; exact h.blank x hx
    · intro e he
      obtain ⟨h1, h2, h3⟩ := h.all_ok e he
      by_cases ed : e.2 = d
      · rw [ed, hself, y1, y2]; rw [ed] at h1 h2; exact ⟨h1, h2, rfl⟩
      · rw [hne _ ed]; exact ⟨h1, h2, h3⟩
    · intro x
      show (upd s.ctx d y x).pending = l.count x + owed (upd s.ctx d y) s.all x
      rw [owed_add h.keys (fun e he => (h.all_ok e he).2.1) hd y5]
      have hb := h.bal x
      have : (c :: l).count x = l.count x + [c].count x := by
        rw [List.count_cons, List.count_cons]; simp
      rw [this] at hb
      by_cases e : x = d
      · subst e; rw [upd_self, y3]; omega
      · rw [upd_ne _ _ e]; omega
    · intro x hx
      by_cases e : x = d
      · rw [e, hself, y3]; exact h.idle d (e ▸ hx)
      · rw [hne x e]; exact h.idle x hx
    · intro x hx hor
      by_cases e : x = d
      · rw [e, hself, y1, hdk]; exact hd
      · rw [hne x e] at hx hor ⊢; exact h.mem_all x hx hor
    · intro e he
      by_cases ed : e.2 = d
      · rw [ed, hself, y3]; have := h.live e he; rw [ed] at this; exact this
      · rw [hne _ ed]; exact h.live e he
    · intro x hx
      by_cases e : x = d
      · rw [e, hself, y2] at hx; cases hx
      · rw [hne x e] at hx ⊢; exact h.ext_notify x hx
    · intro p hp
      have := h.ret_ext p hp
      by_cases e : p.1 = d
      · rw [e, hde] at this; cases this
      · rw [hne _ e]; exact this
    · intro x hx he
      by_cases e : x = d
      · rw [e, hself, y2] at he; cases he
      · rw [hne x e] at he ⊢; rw [htr]; exact h.answered x hx he
    · intro x hx
      rw [htr] at hx
      have := h.ans_out x hx
      by_cases e : x = d
      · rw [e, hde] at this; cases this.1
      · rw [hne x e]; exact this
    · intro x hx
      by_cases e : x = d
      · rw [e, hself, y4] at hx
        rw [e, hself, y1, y2, y3, y6, y8, y9]
        obtain ⟨h1, h2, h3, h4⟩ := h.first_ok d hx
        exact ⟨h1, fun _ => h2 hde, (fun x => nomatch x), h4⟩
      · rw [hne x e] at hx ⊢; exact h.first_ok x hx
    · intro x hx
      by_cases e : x = d
      · rw [e, hself, y4] at hx
        rw [e, hself, y8]
        exact h.first_run d hx
      · rw [hne x e] at hx ⊢; exact h.first_run x hx
  | none =>
    simp only
    have hnk := lookup_none hk
    generalize hs' : (State.emit (State.queue { s.setCtx s.next (Ctx.int g k c (s.ctx c).order) with
      next := s.next + 1, all := (k, s.next) :: s.all } s.next) (.attach c k s.next)) = s'
    have hself : s'.ctx s.next = Ctx.int g k c (s.ctx c).order := by rw [← hs']; exact upd_self ..
    have hne : ∀ x, x ≠ s.next → s'.ctx x = s.ctx x := fun x e => by rw [← hs']; exact upd_ne _ _ e
    have htr : ∀ x, Answered s'.trace x ↔ Answered s.trace x :=
      fun x => by rw [← hs']; exact answered_append (fun _ _ => by simp)
    have hl : s'.lists = s.next :: s.lists := by rw [← hs']; rfl
    have hn' : s'.next = s.next + 1 := by rw [← hs']; rfl
    have hall : s'.all = (k, s.next) :: s.all := by rw [← hs']; rfl
    have hrt : s'.returning = s.returning := by rw [← hs']; rfl
    have hru : s'.running = s.running := by rw [← hs']; rfl
    have hfi : s'.finished = s.finished := by rw [← hs']; rfl
    clear hs'
    have hbl := h.blank s.next (Nat.le_refl _)
    have hne' : ∀ e ∈ s.all, e.2 ≠ s.next := fun e he => Nat.ne_of_lt (h.all_ok e he).1
    have hnl : s.next ∉ s.lists := fun hx => Nat.lt_irrefl _ (h.lt _ hx)
    refine ⟨?_, ?_, ?_, ?_, ?_, ?_, ?_, ?_, ?_, ?_, ?_, ?_, ?_, ?_, ?_⟩
    · rw [hl]; exact List.nodup_cons.2 ⟨hnl, h.nodup⟩
    · rw [hl, hn']; intro x hx
      rcases List.mem_cons.1 hx with rfl | hx
      · omega
      · have := h.lt x hx; omega
    · intro x hx
      rw [hn'] at hx
      rw [hne x (by omega)]; exact h.blank x (by omega)
    · rw [hall, List.map_cons, List.nodup_cons]; exact ⟨hnk, h.keys⟩
    · rw [hall, hn']; intro e he
      rcases List.mem_cons.1 he with rfl | he
      · simp only; rw [hself]; exact ⟨by omega, rfl, rfl⟩
      · obtain ⟨h1, h2, h3⟩ := h.all_ok e he
        rw [hne _ (hne' e he)]; exact ⟨by omega, h2, h3⟩
    · intro x
      have ho : owed s'.ctx s'.all x = [c].count x + owed s.ctx s.all x := by
        rw [hall]
        have := owed_congr (x := x) (ctx := s.ctx) (ctx' := s'.ctx) (all := s.all)
          (fun e he => by rw [hne _ (hne' e he)])
        unfold owed at this ⊢
        rw [List.map_cons, List.sum_cons, this]
        simp only; rw [hself]; rfl
      rw [ho]
      have hb := h.bal x
      have : (c :: l).count x = l.count x + [c].count x := by
        rw [List.count_cons, List.count_cons]; simp
      rw [this] at hb
      by_cases e : x = s.next
      · rw [e, hself]
        rw [e, hbl] at hb
        have h0 : (Ctx.blank g.init : Ctx F L).pending = 0 := rfl
        have h1 : (Ctx.int g k c (s.ctx c).order : Ctx F L).pending = 0 := rfl
        omega
      · rw [hne x e]; omega
    · rw [hl]; intro x hx
      by_cases e : x = s.next
      · rw [e, hself]; rfl
      · rw [hne x e]; exact h.idle x ((List.mem_cons.1 hx).resolve_left e)
    · intro x hx hor
      rw [hall]
      by_cases e : x = s.next
      · rw [e, hself]; exact List.mem_cons_self ..
      · rw [hne x e] at hx hor ⊢
        rw [hl] at hor
        refine List.mem_cons_of_mem _ (h.mem_all x hx ?_)
        rcases hor with hor | hor
        · exact .inl ((List.mem_cons.1 hor).resolve_left e)
        · exact .inr hor
    · rw [hall, hl]; intro e he
      rcases List.mem_cons.1 he with rfl | he
      · exact .inl (List.mem_cons_self ..)
      · rw [hne _ (hne' e he)]
        rcases h.live e he with h1 | h1
        · exact .inl (List.mem_cons_of_mem _ h1)
        · exact .inr h1
    · intro x hx
      by_cases e : x = s.next
      · rw [e, hself] at hx; cases hx
      · rw [hne x e] at hx ⊢; exact h.ext_notify x hx
    · rw [hrt]; intro p hp
      have hlt := h.lt p.1 (by
        unfold State.lists
        simp only [List.mem_append]
        exact .inr (.inr (.inr (.inr (List.mem_map.2 ⟨p, hp, rfl⟩)))))
      rw [hne _ (Nat.ne_of_lt hlt)]; exact h.ret_ext p hp
    · intro x hx he
      by_cases e : x = s.next
      · rw [e, hself] at he; cases he
      · rw [hne x e] at he ⊢; rw [htr, hl]
        rcases h.answered x (by omega) he with h1 | h1
        · exact .inl (List.mem_cons_of_mem _ h1)
        · exact .inr h1
    · intro x hx
      rw [htr] at hx
      have := h.ans_out x hx
      have e : x ≠ s.next := by
        rintro rfl
        rw [hbl] at this; cases this.1
      rw [hne x e, hl]
      exact ⟨this.1, by simp only [List.mem_cons, not_or]; exact ⟨e, this.2.1⟩, this.2.2⟩
    · intro x hx
      by_cases e : x = s.next
      · rw [e, hself]
        exact ⟨rfl, fun _ => rfl, (fun y => nomatch y), fun _ => ⟨rfl, rfl⟩⟩
      · rw [hne x e] at hx ⊢; exact h.first_ok x hx
    · intro x hx
      rw [hru, hfi]
      by_cases e : x = s.next
      · intro ho
        refine absurd ?_ (e ▸ hnl)
        unfold State.lists
        simp only [List.mem_append]
        rcases ho with ho | ho
        · exact .inr (.inr (.inl ho))
        · exact .inr (.inr (.inr (.inl ho)))
      · rw [hne x e] at hx ⊢
        exact h.first_run x hx

theorem attachAll_acc {g : Graph F L} {c : Nat} : ∀ {ks : List Key} {s : State F L},
    Acc g s (List.replicate ks.length c) → Acc g (s.attachAll g c ks) []
  | [], _, h => h
  | k :: t, s, h => attachAll_acc (ks := t) (attach_acc (by
      rw [List.length_cons, List.replicate_succ] at h; exact h))

end VS.Pool
