import Verif.Cache.LemmasHistory

/-!
# Helper lemmas about the cache of a node
-/

namespace VS.Cache
open VS

/-- What a sequence of cache calls leaves was there before, or was stored by it. -/
theorem run_mem : ∀ (ops : List Op) (c : Cache) (fs hs), Inv c fs hs → ∀ c' outs,
    run c ops = .ok (c', outs) → ∃ fs' hs', Inv c' fs' hs' ∧
      (∀ k f, (k, f) ∈ fs' → (.insert k f ∈ ops) ∨ ((k, f) ∈ fs ∧ .clear ∉ ops)) ∧
      (ops.getLast? = some .clear → fs' = [] ∧ hs' = []) := by
  intro ops
  induction ops with
  | nil =>
    intro c fs hs i c' outs h
    simp only [run, Res.ok.injEq, Prod.mk.injEq] at h
    obtain ⟨rfl, rfl⟩ := h
    exact ⟨fs, hs, i, fun k f h => Or.inr ⟨h, by simp⟩, by simp⟩
  | cons op t ih =>
    intro c fs hs i c' outs h
    have hs1 := step_inv op i
    simp only [run] at h
    generalize step c op = r at hs1 h
    cases hs1 with
    | big => cases h
    | ok c1 o fs1 hs1 i1 n =>
      simp only [Res.bind_ok] at h
      cases h2 : run c1 t with
      | ok q =>
        rw [h2] at h
        simp only [Res.bind_ok, Res.ok.injEq, Prod.mk.injEq] at h
        obtain ⟨rfl, rfl⟩ := h
        by_cases ht : t = []
        · subst ht
          simp only [run, Res.ok.injEq] at h2
          subst h2
          refine ⟨fs1, hs1, i1, ?_, ?_⟩
          · intro k f hm
            cases n with
            | insert k' f' hs' t =>
              have := List.mem_of_mem_take hm
              rw [List.mem_cons, List.mem_filter] at this
              rcases this with h | h
              · cases h; exact Or.inl (by simp)
              · exact Or.inr ⟨h.1, by simp⟩
            | hit a k' f' b e =>
              right
              subst e
              refine ⟨?_, by simp⟩
              simp only [List.mem_cons, List.mem_append] at hm ⊢
              rcases hm with h | h | h
              · exact Or.inr (Or.inl h)
              · exact Or.inl h
              · exact Or.inr (Or.inr h)
            | miss k' e => exact Or.inr ⟨hm, by simp⟩
            | clear => cases hm
            | other op fs' hs' h1 h2 h3 t =>
              exact Or.inr ⟨t.1.subset hm, by simpa using fun h => h3 h.symm⟩
          · intro hl
            simp only [List.getLast?_singleton, Option.some.injEq] at hl
            subst hl
            cases n with
            | clear => exact ⟨rfl, rfl⟩
            | other op fs' hs' h1 h2 h3 t => exact absurd rfl h3
        · obtain ⟨fs', hs', i', g1, g2⟩ := ih c1 fs1 hs1 i1 q.1 q.2 h2
          refine ⟨fs', hs', i', ?_, ?_⟩
          · intro k f hm
            rcases g1 k f hm with h | ⟨h, hc⟩
            · exact Or.inl (List.mem_cons_of_mem _ h)
            · cases n with
              | insert k' f' hs' t =>
                have := List.mem_of_mem_take h
                rw [List.mem_cons, List.mem_filter] at this
                rcases this with h | h
                · cases h; exact Or.inl (by simp)
                · exact Or.inr ⟨h.1, by simpa using hc⟩
              | hit a k' f' b e =>
                right
                subst e
                refine ⟨?_, by simpa using hc⟩
                simp only [List.mem_cons, List.mem_append] at h ⊢
                rcases h with h | h | h
                · exact Or.inr (Or.inl h)
                · exact Or.inl h
                · exact Or.inr (Or.inr h)
              | miss k' e => exact Or.inr ⟨h, by simpa using hc⟩
              | clear => cases h
              | other op fs' hs' h1 h2 h3 t =>
                exact Or.inr ⟨t.1.subset h, by
                  simp only [List.mem_cons, not_or]; exact ⟨fun h => h3 h.symm, hc⟩⟩
          · intro hl
            apply g2
            rw [List.getLast?_cons] at hl
            cases t with
            | nil => exact absurd rfl ht
            | cons x t =>
              rw [List.getLast?_cons]
              rw [List.getLast?_cons] at hl
              simpa using hl
      | err m => rw [h2] at h; cases h
      | fatal m => rw [h2] at h; cases h
      | ub => rw [h2] at h; cases h

/-- The flags follow the history. -/
structure NInv (n : CNode) (past : List NOp) : Prop where
  cons : n.consumers = Spec.attached past
  lin : n.linear = true ↔ Spec.mode past = .linear
  over : n.override = true ↔ Spec.mode past ≠ .auto
  en : n.enabled = true ↔ Spec.Active past
  only : n.lastOnly = true ↔ Spec.LastOnly past
  reg : n.registered = n.enabled

theorem auto_enabled_iff (cs : List Consumer) :
    autoEnabled cs = true ↔ ¬ ∃ c, cs = [c] ∧ (c.pattern = 1 ∨ c.pattern = 2) := by
  match cs with
  | [] => simp [autoEnabled]
  | [c] =>
    simp only [autoEnabled, List.length_singleton, rpStrictSpatial, rpNoFrameReuse]
    simp [not_or]
    constructor
    · rintro ⟨h1, h2⟩; exact ⟨h2, h1⟩
    · rintro ⟨h1, h2⟩; exact ⟨h2, h1⟩
  | c :: d :: t => simp [autoEnabled]

theorem auto_lastOnly_iff (cs : List Consumer) :
    autoLastOnly cs = true ↔ ∃ c, cs = [c] ∧ c.pattern = 3 := by
  match cs with
  | [] => simp [autoLastOnly]
  | [c] => simp [autoLastOnly, rpFrameReuseLastOnly]
  | c :: d :: t => simp [autoLastOnly]

theorem eraseFirst_eq (c : Consumer) (l : List Consumer) : eraseFirst c l = l.erase c := by
  induction l with
  | nil => rfl
  | cons d t ih =>
    obtain ⟨a, b⟩ := c
    obtain ⟨a', b'⟩ := d
    simp only [eraseFirst, List.erase_cons, ih]
    by_cases h : a' = a ∧ b' = b
    · simp [h]
    · rw [if_neg h]
      have : (⟨a', b'⟩ : Consumer) ≠ ⟨a, b⟩ := by simpa using h
      simp [this]

theorem mode_snoc (past : List NOp) (op : NOp) :
    Spec.mode (past ++ [op]) = Spec.setMode (Spec.mode past) op := by simp [Spec.mode]

theorem attached_snoc (past : List NOp) (op : NOp) :
    Spec.attached (past ++ [op]) = Spec.attach (Spec.attached past) op := by simp [Spec.attached]

/-- Recomputing the flags in automatic mode, or leaving them alone otherwise. -/
theorem update_ninv (n : CNode) (past : List NOp) (hc : n.consumers = Spec.attached past)
    (hl : n.linear = true ↔ Spec.mode past = .linear)
    (ho : n.override = true ↔ Spec.mode past ≠ .auto)
    (he : Spec.mode past ≠ .auto → (n.enabled = true ↔ Spec.Active past))
    (hs : Spec.mode past ≠ .auto → n.lastOnly = false) :
    NInv (registerCache (updateCacheState n)) past := by
  unfold updateCacheState registerCache
  by_cases h : n.override = true
  · rw [if_pos h]
    have hm := ho.1 h
    refine ⟨hc, hl, ho, he hm, ?_, rfl⟩
    simp only [hs hm, Spec.LastOnly]
    simp [hm]
  · rw [if_neg h]
    have hm : Spec.mode past = .auto := by
      by_cases g : Spec.mode past = .auto
      · exact g
      · exact absurd (ho.2 g) h
    refine ⟨hc, hl, ho, ?_, ?_, rfl⟩
    · simp only [Spec.Active, hm, auto_enabled_iff, hc]
    · simp only [Spec.LastOnly, hm, auto_lastOnly_iff, hc, true_and]

/-- Calls on the cache do not touch the flags. -/
theorem cacheCalls_ok {n : CNode} {ops} {p} (h : cacheCalls n ops = .ok p) :
    ∃ c, run n.cache ops = .ok (c, p.2) ∧ p.1 = { n with cache := c } := by
  unfold cacheCalls at h
  cases hr : run n.cache ops with
  | ok q =>
    rw [hr] at h
    simp only [Res.bind_ok, Res.ok.injEq] at h
    subst h
    exact ⟨q.1, rfl, rfl⟩
  | err m => rw [hr] at h; cases h
  | fatal m => rw [hr] at h; cases h
  | ub => rw [hr] at h; cases h

theorem NInv.cache {n : CNode} {past} (i : NInv n past) (c : Cache) (op : NOp)
    (hm : Spec.mode (past ++ [op]) = Spec.mode past)
    (ha : Spec.attached (past ++ [op]) = Spec.attached past) :
    NInv { n with cache := c } (past ++ [op]) := by
  have h1 : Spec.Active (past ++ [op]) ↔ Spec.Active past := by
    simp only [Spec.Active, hm, ha]
  have h2 : Spec.LastOnly (past ++ [op]) ↔ Spec.LastOnly past := by
    simp only [Spec.LastOnly, hm, ha]
  exact ⟨i.cons.trans ha.symm, by rw [hm]; exact i.lin, by rw [hm]; exact i.over,
    by rw [h1]; exact i.en, by rw [h2]; exact i.only, i.reg⟩

theorem bind_ok_inv {α β} {r : Res α} {f : α → Res β} {b : β} (h : (r >>= f) = .ok b) :
    ∃ a, r = .ok a ∧ f a = .ok b := by
  cases r with
  | ok a => exact ⟨a, rfl, h⟩
  | err m => cases h
  | fatal m => cases h
  | ub => cases h

theorem modeFlags_ninv {n : CNode} {past : List NOp} (i : NInv n past) (mode : Int)
    (hlin : ¬ n.linear = true) (h1 : -1 ≤ mode) (h2 : mode ≤ 1) (c : Cache) :
    NInv (registerCache { modeFlags n mode with cache := c }) (past ++ [.setCacheMode mode]) := by
  have hnl : Spec.mode past ≠ .linear := fun h => hlin (i.lin.2 h)
  have hm := mode_snoc past (.setCacheMode mode)
  have ha : Spec.attached (past ++ [.setCacheMode mode]) = Spec.attached past := by
    rw [attached_snoc]; rfl
  simp only [Spec.setMode, if_neg hnl] at hm
  have hcases : mode = -1 ∨ mode = 0 ∨ mode = 1 := by omega
  have hnl' : n.linear = false := by simpa using hlin
  rcases hcases with rfl | rfl | rfl
  · simp only [if_true] at hm
    have : NInv (registerCache (updateCacheState { n with override := false }))
        (past ++ [.setCacheMode (-1)]) :=
      update_ninv _ _ (by rw [ha]; exact i.cons) (by simp [hm, hnl']) (by simp [hm])
        (by simp [hm]) (by simp [hm])
    exact ⟨this.cons, this.lin, this.over, this.en, this.only, rfl⟩
  · have hm' : Spec.mode (past ++ [.setCacheMode 0]) = .off := by rw [hm]; simp
    simp only [modeFlags]
    refine ⟨by simpa [ha, registerCache] using i.cons, by simp [hm', hnl', registerCache],
      by simp [hm', registerCache], by simp [hm', registerCache, Spec.Active],
      by simp [hm', registerCache, Spec.LastOnly], rfl⟩
  · have hm' : Spec.mode (past ++ [.setCacheMode 1]) = .on := by rw [hm]; simp
    simp only [modeFlags]
    refine ⟨by simpa [ha, registerCache] using i.cons, by simp [hm', hnl', registerCache],
      by simp [hm', registerCache], by simp [hm', registerCache, Spec.Active],
      by simp [hm', registerCache, Spec.LastOnly], rfl⟩

theorem nstep_ninv {n : CNode} {past : List NOp} (i : NInv n past) (op : NOp) {n' o}
    (h : nstep n op = .ok (n', o)) : NInv n' (past ++ [op]) := by
  cases op with
  | addConsumer c =>
    simp only [nstep, Res.ok.injEq, Prod.mk.injEq] at h
    rw [← h.1]
    have hm : Spec.mode (past ++ [.addConsumer c]) = Spec.mode past := by rw [mode_snoc]; rfl
    refine update_ninv _ _ ?_ (by rw [hm]; exact i.lin) (by rw [hm]; exact i.over) ?_ ?_
    · rw [attached_snoc]; simp only [Spec.attach, i.cons]
    · intro ha
      have := i.en
      simp only [Spec.Active, hm] at this ⊢
      rw [hm] at ha
      cases e : Spec.mode past <;> simp_all
    · intro ha
      have := i.only
      rw [hm] at ha
      simp only [Spec.LastOnly, ha, false_and, iff_false] at this
      simpa using this
  | removeConsumer c =>
    simp only [nstep, Res.ok.injEq, Prod.mk.injEq] at h
    rw [← h.1]
    have hm : Spec.mode (past ++ [.removeConsumer c]) = Spec.mode past := by rw [mode_snoc]; rfl
    refine update_ninv _ _ ?_ (by rw [hm]; exact i.lin) (by rw [hm]; exact i.over) ?_ ?_
    · rw [attached_snoc]; simp only [Spec.attach, i.cons, eraseFirst_eq]
    · intro ha
      have := i.en
      simp only [Spec.Active, hm] at this ⊢
      rw [hm] at ha
      cases e : Spec.mode past <;> simp_all
    · intro ha
      have := i.only
      rw [hm] at ha
      simp only [Spec.LastOnly, ha, false_and, iff_false] at this
      simpa using this
  | setLinear t =>
    simp only [nstep] at h
    obtain ⟨p, e1, e2⟩ := bind_ok_inv h
    obtain ⟨c, -, e3⟩ := cacheCalls_ok e1
    simp only [Res.ok.injEq, Prod.mk.injEq] at e2
    rw [← e2.1, e3]
    have hm : Spec.mode (past ++ [.setLinear t]) = .linear := by rw [mode_snoc]; rfl
    have ha : Spec.attached (past ++ [.setLinear t]) = Spec.attached past := by
      rw [attached_snoc]; rfl
    exact ⟨i.cons.trans ha.symm, by simp [hm, registerCache], by simp [hm, registerCache],
      by simp [hm, registerCache, Spec.Active], by simp [hm, registerCache, Spec.LastOnly], rfl⟩
  | setCacheMode mode =>
    simp only [nstep] at h
    split at h
    · next hc =>
      simp only [Res.ok.injEq, Prod.mk.injEq] at h
      rw [← h.1]
      have hm : Spec.mode (past ++ [.setCacheMode mode]) = Spec.mode past := by
        rw [mode_snoc]
        simp only [Spec.setMode]
        rcases hc with hc | hc | hc
        · rw [if_pos (i.lin.1 hc)]
        · split
          · rfl
          · rw [if_neg (by omega), if_neg (by omega), if_neg (by omega)]
        · split
          · rfl
          · rw [if_neg (by omega), if_neg (by omega), if_neg (by omega)]
      exact i.cache n.cache _ hm (by rw [attached_snoc]; rfl)
    · next hc =>
      obtain ⟨p, e1, e2⟩ := bind_ok_inv h
      obtain ⟨c, -, e3⟩ := cacheCalls_ok e1
      simp only [Res.ok.injEq, Prod.mk.injEq] at e2
      rw [← e2.1, e3]
      refine modeFlags_ninv i mode (fun h => hc (Or.inl h)) ?_ ?_ c
      · by_cases g : mode < -1
        · exact absurd (Or.inr (Or.inl g)) hc
        · omega
      · by_cases g : mode > 1
        · exact absurd (Or.inr (Or.inr g)) hc
        · omega
  | setCacheOptions a b d =>
    simp only [nstep] at h
    obtain ⟨p, e1, e2⟩ := bind_ok_inv h
    obtain ⟨c, -, e3⟩ := cacheCalls_ok e1
    simp only [Res.ok.injEq, Prod.mk.injEq] at e2
    rw [← e2.1, e3]
    exact i.cache c _ (by rw [mode_snoc]; rfl) (by rw [attached_snoc]; rfl)
  | getCached k =>
    simp only [nstep] at h
    split at h
    · obtain ⟨p, e1, e2⟩ := bind_ok_inv h
      obtain ⟨c, -, e3⟩ := cacheCalls_ok e1
      simp only [Res.ok.injEq, Prod.mk.injEq] at e2
      rw [← e2.1, e3]
      exact i.cache c _ (by rw [mode_snoc]; rfl) (by rw [attached_snoc]; rfl)
    · simp only [Res.ok.injEq, Prod.mk.injEq] at h
      rw [← h.1]
      exact i.cache n.cache _ (by rw [mode_snoc]; rfl) (by rw [attached_snoc]; rfl)
  | store k f =>
    simp only [nstep] at h
    split at h
    · obtain ⟨p, e1, e2⟩ := bind_ok_inv h
      obtain ⟨c, -, e3⟩ := cacheCalls_ok e1
      simp only [Res.ok.injEq, Prod.mk.injEq] at e2
      rw [← e2.1, e3]
      exact i.cache c _ (by rw [mode_snoc]; rfl) (by rw [attached_snoc]; rfl)
    · simp only [Res.ok.injEq, Prod.mk.injEq] at h
      rw [← h.1]
      exact i.cache n.cache _ (by rw [mode_snoc]; rfl) (by rw [attached_snoc]; rfl)
  | cacheFrame k f =>
    simp only [nstep] at h
    split at h
    · obtain ⟨p, e1, e2⟩ := bind_ok_inv h
      obtain ⟨c, -, e3⟩ := cacheCalls_ok e1
      simp only [Res.ok.injEq, Prod.mk.injEq] at e2
      rw [← e2.1, e3]
      exact i.cache c _ (by rw [mode_snoc]; rfl) (by rw [attached_snoc]; rfl)
    · cases h
  | clearCache r =>
    simp only [nstep] at h
    obtain ⟨p, e1, e2⟩ := bind_ok_inv h
    obtain ⟨c, -, e3⟩ := cacheCalls_ok e1
    simp only [Res.ok.injEq, Prod.mk.injEq] at e2
    rw [← e2.1, e3]
    exact i.cache c _ (by rw [mode_snoc]; rfl) (by rw [attached_snoc]; rfl)
  | notifyCache b e =>
    simp only [nstep] at h
    obtain ⟨p, e1, e2⟩ := bind_ok_inv h
    obtain ⟨c, -, e3⟩ := cacheCalls_ok e1
    simp only [Res.ok.injEq, Prod.mk.injEq] at e2
    rw [← e2.1, e3]
    exact i.cache c _ (by rw [mode_snoc]; rfl) (by rw [attached_snoc]; rfl)
  | evictBytes m =>
    simp only [nstep] at h
    obtain ⟨p, e1, e2⟩ := bind_ok_inv h
    obtain ⟨c, -, e3⟩ := cacheCalls_ok e1
    simp only [Res.ok.injEq, Prod.mk.injEq] at e2
    rw [← e2.1, e3]
    exact i.cache c _ (by rw [mode_snoc]; rfl) (by rw [attached_snoc]; rfl)

theorem ninv_new (numFrames : Int) : NInv (CNode.new numFrames) [] := by
  refine ⟨rfl, by simp [CNode.new, updateCacheState, registerCache, Spec.mode],
    by simp [CNode.new, updateCacheState, registerCache, Spec.mode], ?_, ?_, rfl⟩
  · simp [CNode.new, updateCacheState, registerCache, autoEnabled, Spec.Active, Spec.mode,
      Spec.attached]
  · simp [CNode.new, updateCacheState, registerCache, autoLastOnly, Spec.LastOnly, Spec.mode,
      Spec.attached]

/-- The contents of the cache of a node. -/
def CInv (n : CNode) (past : List NOp) : Prop :=
  ∃ fs hs, Inv n.cache fs hs ∧ (∀ k f, (k, f) ∈ fs → Spec.Held past k f) ∧
    (n.enabled = false → fs = [] ∧ hs = [])

theorem held_snoc {past : List NOp} {k f} (h : Spec.Held past k f) (op : NOp)
    (hop : ∀ b, op ≠ .clearCache b) : Spec.Held (past ++ [op]) k f := by
  obtain ⟨pre, post, o, e, h1, h2⟩ := h
  refine ⟨pre, post ++ [op], o, by rw [e]; simp, h1, ?_⟩
  intro b hm
  rw [List.mem_append, List.mem_singleton] at hm
  rcases hm with hm | hm
  · exact h2 b hm
  · exact hop b hm.symm

/-- Cache calls without stores. -/
theorem calls_cinv {n m : CNode} {past : List NOp} (op : NOp) {c : Cache} {ops outs}
    (hc : ∃ fs hs, Inv n.cache fs hs ∧ (∀ k f, (k, f) ∈ fs → Spec.Held past k f))
    (hr : run n.cache ops = .ok (c, outs)) (hm : m.cache = c)
    (h1 : ∀ k f, .insert k f ∈ ops → op = .store k f ∨ op = .cacheFrame k f)
    (h2 : .clear ∉ ops → ∀ b, op ≠ .clearCache b)
    (h3 : m.enabled = false → (ops.getLast? = some .clear) ∨
      ((∀ fs hs, Inv n.cache fs hs → fs = [] ∧ hs = []) ∧ ∀ k f, .insert k f ∉ ops)) :
    CInv m (past ++ [op]) := by
  obtain ⟨fs, hs, i, hh⟩ := hc
  obtain ⟨fs', hs', i', g1, g2⟩ := run_mem _ _ _ _ i _ _ hr
  refine ⟨fs', hs', by rw [hm]; exact i', ?_, ?_⟩
  · intro k f hmem
    rcases g1 k f hmem with h | ⟨h, hc⟩
    · exact ⟨past, [], op, rfl, h1 k f h, by simp⟩
    · exact held_snoc (hh k f h) op (h2 hc)
  · intro he
    rcases h3 he with h | ⟨h, hno⟩
    · exact g2 h
    · obtain ⟨rfl, rfl⟩ := h fs hs i
      have hf : fs' = [] := by
        cases fs' with
        | nil => rfl
        | cons p t =>
          rcases g1 p.1 p.2 (by simp) with h | ⟨h, -⟩
          · exact absurd h (hno _ _)
          · cases h
      refine ⟨hf, ?_⟩
      -- the remembered numbers come from earlier uses only
      have h0 : ∀ (ops : List Op) (c c' : Cache) (outs : List (Option Frame)), Inv c [] [] →
          (∀ k f, Op.insert k f ∉ ops) → run c ops = .ok (c', outs) → Inv c' [] [] := by
        intro ops
        induction ops with
        | nil =>
          intro c c' outs i _ h
          simp only [run, Res.ok.injEq, Prod.mk.injEq] at h
          rw [← h.1]; exact i
        | cons o t ih =>
          intro c c' outs i hno h
          have hs1 := step_inv o i
          simp only [run] at h
          generalize step c o = r at hs1 h
          cases hs1 with
          | big => cases h
          | ok c1 out fs1 hs1 i1 n =>
            simp only [Res.bind_ok] at h
            obtain ⟨q, e1, e2⟩ := bind_ok_inv h
            simp only [Res.ok.injEq, Prod.mk.injEq] at e2
            have hnil : fs1 = [] ∧ hs1 = [] := by
              cases n with
              | insert k f hs' t => exact absurd (by simp) (hno k f)
              | hit a k f b e => simp at e
              | miss k e => exact ⟨rfl, rfl⟩
              | clear => exact ⟨rfl, rfl⟩
              | other op fs' hs' h1 h2 h3 t =>
                have := t.2
                simp only [List.map_nil, List.nil_append, List.prefix_nil, List.append_eq_nil_iff,
                  List.map_eq_nil_iff] at this
                exact this
            obtain ⟨rfl, rfl⟩ := hnil
            rw [← e2.1]
            exact ih c1 q.1 q.2 i1 (fun k f hm => hno k f (List.mem_cons_of_mem _ hm)) e1
      have i3 := h0 _ _ _ _ i hno hr
      have l1 := i'.rep.hist
      have l2 := i3.rep.hist
      rw [l1] at l2
      simpa using l2

theorem CInv.weak {n : CNode} {past} (h : CInv n past) :
    ∃ fs hs, Inv n.cache fs hs ∧ (∀ k f, (k, f) ∈ fs → Spec.Held past k f) := by
  obtain ⟨fs, hs, a, b, -⟩ := h
  exact ⟨fs, hs, a, b⟩

theorem CInv.empty {n : CNode} {past} (h : CInv n past) (he : n.enabled = false) :
    ∀ fs hs, Inv n.cache fs hs → fs = [] ∧ hs = [] := by
  obtain ⟨fs, hs, a, b, c⟩ := h
  obtain ⟨rfl, rfl⟩ := c he
  intro fs' hs' i
  have l1 := i.rep.size
  have l2 := a.rep.size
  have l3 := i.rep.hist
  have l4 := a.rep.hist
  rw [l1] at l2
  rw [l3] at l4
  exact ⟨by simpa using l2, by simpa using l4⟩

theorem update_cinv {n : CNode} {past : List NOp} (op : NOp) (hop : ∀ b, op ≠ .clearCache b)
    {m : CNode} (h : CInv n past) (hm : m.cache = n.cache) (he : m.enabled = n.enabled) :
    CInv (registerCache (updateCacheState m)) (past ++ [op]) := by
  obtain ⟨fs, hs, i, h1, h2⟩ := h
  unfold updateCacheState registerCache
  by_cases ho : m.override = true
  · rw [if_pos ho]
    exact ⟨fs, hs, by rw [hm]; exact i, fun k f hk => held_snoc (h1 k f hk) op hop,
      fun h => h2 (by rw [← he]; exact h)⟩
  · rw [if_neg ho]
    by_cases ha : autoEnabled m.consumers = true
    · refine ⟨fs, hs, ?_, fun k f hk => held_snoc (h1 k f hk) op hop, ?_⟩
      · simp only [ha, if_true, hm]; exact i
      · simp [ha]
    · refine ⟨[], [], ?_, by simp, fun _ => ⟨rfl, rfl⟩⟩
      simp only [ha, hm]
      exact clear_inv i

theorem modeFlags_cache (n : CNode) (mode : Int) {past : List NOp} (h : CInv n past) :
    ∃ fs hs, Inv (modeFlags n mode).cache fs hs ∧
      (∀ k f, (k, f) ∈ fs → Spec.Held past k f) := by
  obtain ⟨fs, hs, i, h1, h2⟩ := h
  unfold modeFlags
  split
  · unfold updateCacheState
    simp only [Bool.false_eq_true, if_false]
    by_cases ha : autoEnabled n.consumers = true
    · rw [if_pos ha]; exact ⟨fs, hs, i, h1⟩
    · rw [if_neg ha]; exact ⟨[], [], clear_inv i, by simp⟩
  · split <;> exact ⟨fs, hs, i, h1⟩

theorem nstep_cinv {n : CNode} {past : List NOp} (nv : NInv n past) (i : CInv n past) (op : NOp)
    {n' o} (h : nstep n op = .ok (n', o)) : CInv n' (past ++ [op]) := by
  cases op with
  | addConsumer c =>
    simp only [nstep, Res.ok.injEq, Prod.mk.injEq] at h
    rw [← h.1]
    exact update_cinv _ (by simp) i rfl rfl
  | removeConsumer c =>
    simp only [nstep, Res.ok.injEq, Prod.mk.injEq] at h
    rw [← h.1]
    exact update_cinv _ (by simp) i rfl rfl
  | setLinear t =>
    simp only [nstep] at h
    obtain ⟨p, e1, e2⟩ := bind_ok_inv h
    obtain ⟨c, er, e3⟩ := cacheCalls_ok e1
    simp only [Res.ok.injEq, Prod.mk.injEq] at e2
    rw [← e2.1, e3]
    exact calls_cinv (n := n) _ i.weak er rfl (by simp) (by simp) (by simp [registerCache])
  | setCacheMode mode =>
    simp only [nstep] at h
    split at h
    · simp only [Res.ok.injEq, Prod.mk.injEq] at h
      rw [← h.1]
      exact calls_cinv (n := n) (ops := []) (outs := []) _ i.weak rfl rfl (by simp) (by simp)
        (fun he => Or.inr ⟨i.empty he, by simp⟩)
    · obtain ⟨p, e1, e2⟩ := bind_ok_inv h
      obtain ⟨c, er, e3⟩ := cacheCalls_ok e1
      simp only [Res.ok.injEq, Prod.mk.injEq] at e2
      rw [← e2.1, e3]
      refine calls_cinv (n := modeFlags n mode) _ (modeFlags_cache n mode i) er rfl ?_ (by simp) ?_
      · intro k f hm
        simp only [List.mem_append, List.mem_cons] at hm
        split at hm <;> simp at hm
      · intro he
        left
        have : ¬ (modeFlags n mode).enabled = true := by
          simp only [registerCache] at he
          rw [he]; simp
        rw [if_neg this]; simp
  | setCacheOptions a b d =>
    simp only [nstep] at h
    obtain ⟨p, e1, e2⟩ := bind_ok_inv h
    obtain ⟨c, er, e3⟩ := cacheCalls_ok e1
    simp only [Res.ok.injEq, Prod.mk.injEq] at e2
    rw [← e2.1, e3]
    have hno : ∀ k f, Op.insert k f ∉ optionCalls a b d := by
      intro k f hm
      simp only [optionCalls, List.mem_append] at hm
      rcases hm with (hm | hm) | hm <;> (split at hm <;> simp at hm)
    exact calls_cinv (n := n) _ i.weak er rfl (fun k f hm => absurd hm (hno k f)) (by simp)
      (fun he => Or.inr ⟨i.empty he, hno⟩)
  | getCached k =>
    simp only [nstep] at h
    split at h
    · next he =>
      obtain ⟨p, e1, e2⟩ := bind_ok_inv h
      obtain ⟨c, er, e3⟩ := cacheCalls_ok e1
      simp only [Res.ok.injEq, Prod.mk.injEq] at e2
      rw [← e2.1, e3]
      exact calls_cinv (n := n) _ i.weak er rfl (by simp) (by simp) (by simp [he])
    · simp only [Res.ok.injEq, Prod.mk.injEq] at h
      rw [← h.1]
      exact calls_cinv (n := n) (ops := []) (outs := []) _ i.weak rfl rfl (by simp) (by simp)
        (fun he => Or.inr ⟨i.empty he, by simp⟩)
  | store k f =>
    simp only [nstep] at h
    split at h
    · next he =>
      obtain ⟨p, e1, e2⟩ := bind_ok_inv h
      obtain ⟨c, er, e3⟩ := cacheCalls_ok e1
      simp only [Res.ok.injEq, Prod.mk.injEq] at e2
      rw [← e2.1, e3]
      exact calls_cinv (n := n) _ i.weak er rfl (by simp +contextual)
        (by simp) (by simp [he.1])
    · simp only [Res.ok.injEq, Prod.mk.injEq] at h
      rw [← h.1]
      exact calls_cinv (n := n) (ops := []) (outs := []) _ i.weak rfl rfl (by simp) (by simp)
        (fun he => Or.inr ⟨i.empty he, by simp⟩)
  | cacheFrame k f =>
    simp only [nstep] at h
    split at h
    · next hl =>
      obtain ⟨p, e1, e2⟩ := bind_ok_inv h
      obtain ⟨c, er, e3⟩ := cacheCalls_ok e1
      simp only [Res.ok.injEq, Prod.mk.injEq] at e2
      rw [← e2.1, e3]
      have hen : n.enabled = true := by
        rw [nv.en]
        simp [Spec.Active, nv.lin.1 hl]
      exact calls_cinv (n := n) _ i.weak er rfl (by simp +contextual)
        (by simp) (by simp [hen])
    · cases h
  | clearCache r =>
    simp only [nstep] at h
    obtain ⟨p, e1, e2⟩ := bind_ok_inv h
    obtain ⟨c, er, e3⟩ := cacheCalls_ok e1
    simp only [Res.ok.injEq, Prod.mk.injEq] at e2
    rw [← e2.1, e3]
    have hno : ∀ k f, Op.insert k f ∉ Op.clear ::
        (if r = true ∧ n.linear = false ∧ n.cache.fixedSize = false then
          [Op.setMaxFrames (reSeedSize n.cache).toNat] else []) := by
      intro k f hm
      rw [List.mem_cons] at hm
      rcases hm with hm | hm
      · cases hm
      · split at hm <;> simp at hm
    exact calls_cinv (n := n) _ i.weak er rfl (fun k f hm => absurd hm (hno k f))
      (fun hc => absurd (by simp) hc) (fun he => Or.inr ⟨i.empty he, hno⟩)
  | notifyCache b e =>
    simp only [nstep] at h
    obtain ⟨p, e1, e2⟩ := bind_ok_inv h
    obtain ⟨c, er, e3⟩ := cacheCalls_ok e1
    simp only [Res.ok.injEq, Prod.mk.injEq] at e2
    rw [← e2.1, e3]
    exact calls_cinv (n := n) _ i.weak er rfl (by simp) (by simp)
      (fun he => Or.inr ⟨i.empty he, by simp⟩)
  | evictBytes m =>
    simp only [nstep] at h
    obtain ⟨p, e1, e2⟩ := bind_ok_inv h
    obtain ⟨c, er, e3⟩ := cacheCalls_ok e1
    simp only [Res.ok.injEq, Prod.mk.injEq] at e2
    rw [← e2.1, e3]
    exact calls_cinv (n := n) _ i.weak er rfl (by simp) (by simp)
      (fun he => Or.inr ⟨i.empty he, by simp⟩)

theorem cinv_new (numFrames : Int) : CInv (CNode.new numFrames) [] :=
  ⟨[], [], inv_new, by simp, fun _ => ⟨rfl, rfl⟩⟩

theorem nrun_inv : ∀ (ops : List NOp) (n : CNode) (past : List NOp), NInv n past → CInv n past →
    ∀ n' outs, nrun n ops = .ok (n', outs) → NInv n' (past ++ ops) ∧ CInv n' (past ++ ops) := by
  intro ops
  induction ops with
  | nil =>
    intro n past a b n' outs h
    simp only [nrun, Res.ok.injEq, Prod.mk.injEq] at h
    rw [← h.1, List.append_nil]; exact ⟨a, b⟩
  | cons op t ih =>
    intro n past a b n' outs h
    simp only [nrun] at h
    obtain ⟨p, e1, e2⟩ := bind_ok_inv h
    obtain ⟨q, e3, e4⟩ := bind_ok_inv e2
    simp only [Res.ok.injEq, Prod.mk.injEq] at e4
    have := ih p.1 (past ++ [op]) (nstep_ninv a op e1) (nstep_cinv a b op e1) q.1 q.2 e3
    rw [← e4.1]
    simpa using this

end VS.Cache
