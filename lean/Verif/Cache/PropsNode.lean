import Verif.Cache.LemmasNode
import Verif.Cache.Props

/-!
# Properties of the cache of a node: C42, and C10 as the node's users see it
-/

namespace VS.Cache
open VS

/-- **C42.** After any history of consumers coming and going, mode settings and use, the cache of
a node is active exactly when the documented rule says so, and the core knows it exactly then. -/
theorem C42_cache_active (numFrames : Int) (ops : List NOp) (n : CNode)
    (outs : List (Option Frame)) (h : nrun (CNode.new numFrames) ops = .ok (n, outs)) :
    (n.enabled = true ↔ Spec.Active ops) ∧ (n.registered = true ↔ Spec.Active ops) := by
  obtain ⟨i, -⟩ := nrun_inv ops _ [] (ninv_new _) (cinv_new _) n outs h
  rw [List.nil_append] at i
  exact ⟨i.en, by rw [i.reg]; exact i.en⟩

/-- **C42.** While the cache is not active the node holds no frame, remembers no number, and
answers no lookup. -/
theorem C42_inactive_empty (numFrames : Int) (ops : List NOp) (n : CNode)
    (outs : List (Option Frame)) (h : nrun (CNode.new numFrames) ops = .ok (n, outs))
    (hn : ¬ Spec.Active ops) :
    (∀ k, n.cache.hash k = none) ∧ n.cache.currentBytes = 0 ∧
      ∀ k, nstep n (.getCached k) = .ok (n, none) := by
  obtain ⟨i, fs, hs, c, -, he⟩ := nrun_inv ops _ [] (ninv_new _) (cinv_new _) n outs h
  rw [List.nil_append] at i
  have hen : n.enabled = false := by
    have := i.en
    cases e : n.enabled with
    | false => rfl
    | true => exact absurd (this.1 e) hn
  obtain ⟨rfl, rfl⟩ := he hen
  refine ⟨fun k => c.rep.none (by simp) (by simp), c.rep.bytes, fun k => ?_⟩
  simp [nstep, hen]

/-- **C42.** While it is active, a frame the filter produced is answered to the next request for it,
unless the node was told to keep no frames, or only the last frame is worth keeping and this is
another one. -/
theorem C42_active_serves (numFrames : Int) (ops : List NOp) (n : CNode)
    (outs : List (Option Frame)) (h : nrun (CNode.new numFrames) ops = .ok (n, outs))
    (ha : Spec.Active ops) (k : Int) (f : Frame) (hk : Spec.LastOnly ops → k = n.numFrames - 1)
    (hs : 0 < n.cache.maxSize) :
    ∃ n', nrun n [.store k f, .getCached k] = .ok (n', [none, some f]) := by
  obtain ⟨i, fs, hs', c, -, -⟩ := nrun_inv ops _ [] (ninv_new _) (cinv_new _) n outs h
  rw [List.nil_append] at i
  have hen := i.en.2 ha
  obtain ⟨c1, hs1, e1, i1, -, s1⟩ := insert_inv k f c
  have hcond : n.enabled = true ∧ (n.lastOnly = false ∨ k = n.numFrames - 1) := by
    refine ⟨hen, ?_⟩
    cases e : n.lastOnly with
    | false => exact Or.inl rfl
    | true => exact Or.inr (hk (i.only.1 e))
  have hm : ((k, f) :: fs.filter (fun p => p.1 ≠ k)).take n.cache.maxSize.toNat =
      [] ++ (k, f) :: (fs.filter (fun p => p.1 ≠ k)).take (n.cache.maxSize.toNat - 1) := by
    cases e : n.cache.maxSize.toNat with
    | zero => omega
    | succ m => rfl
  rw [hm] at i1
  obtain ⟨c2, e2, -, -⟩ := object_hit i1.rep (by rw [i1.rep.size]; exact i1.frames)
    (by rw [i1.rep.hist]; exact i1.hist)
  refine ⟨{ n with cache := c2 }, ?_⟩
  simp only [nrun, nstep, if_pos hcond, cacheCalls, run, step, e1, Res.bind_ok, if_pos hen, e2,
    answer, List.head?_cons, Option.join]
  rfl

/-- **C42.** While only the last frame is worth keeping, no other frame is stored. -/
theorem C42_last_only (numFrames : Int) (ops : List NOp) (n : CNode)
    (outs : List (Option Frame)) (h : nrun (CNode.new numFrames) ops = .ok (n, outs))
    (hl : Spec.LastOnly ops) (k : Int) (f : Frame) (hk : k ≠ n.numFrames - 1) :
    nstep n (.store k f) = .ok (n, none) := by
  obtain ⟨i, -⟩ := nrun_inv ops _ [] (ninv_new _) (cinv_new _) n outs h
  rw [List.nil_append] at i
  have := i.only.2 hl
  simp [nstep, this, hk]

/-- One consumer that never reuses frames switches caching off, a second one switches it on again,
and removing that one flushes it. -/
example : ∃ n, nrun (CNode.new 10) [.addConsumer ⟨1, 2⟩, .addConsumer ⟨2, 0⟩, .store 3 ⟨7, 1⟩,
    .getCached 3, .removeConsumer ⟨2, 0⟩, .getCached 3] =
      .ok (n, [none, none, none, some ⟨7, 1⟩, none, none]) ∧ n.enabled = false := ⟨_, rfl, rfl⟩

example : Spec.Active [.addConsumer ⟨1, 2⟩, .addConsumer ⟨2, 0⟩] ∧
    ¬ Spec.Active [.addConsumer ⟨1, 2⟩, .addConsumer ⟨2, 0⟩, .removeConsumer ⟨2, 0⟩] ∧
    Spec.LastOnly [.addConsumer ⟨1, 3⟩] := by
  refine ⟨by simp [Spec.Active, Spec.mode, Spec.attached, Spec.setMode, Spec.attach], ?_,
    by simp [Spec.LastOnly, Spec.mode, Spec.attached, Spec.setMode, Spec.attach]⟩
  have e : Spec.attached [.addConsumer ⟨1, 2⟩, .addConsumer ⟨2, 0⟩, .removeConsumer ⟨2, 0⟩] =
    [⟨1, 2⟩] := by decide
  simp [Spec.Active, Spec.mode, Spec.setMode, e]

/-- **C10.** Through all switching, resizing and trimming, a node answers a lookup only with a
frame that was stored for that very number and not flushed since. -/
theorem C10_node_lookup (numFrames : Int) (ops : List NOp) (n n' : CNode)
    (outs : List (Option Frame)) (h : nrun (CNode.new numFrames) ops = .ok (n, outs))
    (k : Int) (f : Frame) (hl : nstep n (.getCached k) = .ok (n', some f)) :
    Spec.Held ops k f := by
  obtain ⟨i, fs, hs', c, hh, -⟩ := nrun_inv ops _ [] (ninv_new _) (cinv_new _) n outs h
  rw [List.nil_append] at i hh
  apply hh
  simp only [nstep] at hl
  split at hl
  · obtain ⟨p, e1, e2⟩ := bind_ok_inv hl
    obtain ⟨c1, e3, e4⟩ := cacheCalls_ok e1
    simp only [Res.ok.injEq, Prod.mk.injEq] at e2
    simp only [run, step] at e3
    rcases lookup_inv k c with ⟨a, g, b, c2, e, e5, -⟩ | ⟨_, c2, e5, -⟩
    · rw [e5] at e3
      simp only [Res.bind_ok, Res.ok.injEq, Prod.mk.injEq] at e3
      have : answer p.2 = some g := by rw [← e3.2]; rfl
      rw [this] at e2
      have := Option.some.inj e2.2
      subst this
      rw [e]; simp
    · rw [e5] at e3
      simp only [Res.bind_ok, Res.ok.injEq, Prod.mk.injEq] at e3
      have : answer p.2 = none := by rw [← e3.2]; rfl
      rw [this] at e2
      cases e2.2
  · simp at hl

example : Spec.Held [.store 3 ⟨7, 1⟩, .addConsumer ⟨1, 0⟩] 3 ⟨7, 1⟩ :=
  ⟨[], [.addConsumer ⟨1, 0⟩], .store 3 ⟨7, 1⟩, rfl, Or.inl rfl, by simp⟩

/-- **C11.** No history of calls on a node crashes, except by calling `cacheFrame` for a node that
is not linear or by the size overflow described at `C11_no_crash`. -/
theorem C11_node_no_crash (numFrames : Int) (ops : List NOp) (n : CNode)
    (outs : List (Option Frame)) (h : nrun (CNode.new numFrames) ops = .ok (n, outs)) (op : NOp)
    (h1 : ∀ k f, op = .cacheFrame k f → Spec.mode ops = .linear)
    (h2 : ∀ b e, op = .notifyCache b e → n.cache.maxSize + 2 ≤ INT_MAX) :
    ∃ n' o, nstep n op = .ok (n', o) := by
  obtain ⟨i, fs, hs, c, -, -⟩ := nrun_inv ops _ [] (ninv_new _) (cinv_new _) n outs h
  rw [List.nil_append] at i
  -- calls that are not adjustments always succeed
  have calls : ∀ (l : List Op) (m : CNode) (fs hs), Inv m.cache fs hs →
      (∀ b e, Op.adjustSize b e ∉ l) → ∃ p, cacheCalls m l = .ok p := by
    have aux : ∀ (l : List Op) (d : Cache) (fs hs), Inv d fs hs → (∀ b e, Op.adjustSize b e ∉ l) →
        ∃ p, run d l = .ok p := by
      intro l
      induction l with
      | nil => intro d fs hs _ _; exact ⟨_, rfl⟩
      | cons o t ih =>
        intro d fs hs inv hno
        have ho := step_inv o inv
        cases hst : step d o with
        | ok p =>
          rw [hst] at ho
          cases ho with
          | ok c1 out fs1 hs1 i1 _ =>
            obtain ⟨q, e⟩ := ih c1 fs1 hs1 i1 (fun b e hm => hno b e (List.mem_cons_of_mem _ hm))
            exact ⟨(q.1, out :: q.2), by simp only [run, hst, Res.bind_ok, e]⟩
        | ub =>
          rw [hst] at ho
          cases ho with
          | big e b hop _ => exact absurd (by rw [hop]; simp) (hno b e)
        | err m => rw [hst] at ho; cases ho
        | fatal m => rw [hst] at ho; cases ho
    intro l m fs hs inv hno
    obtain ⟨p, e⟩ := aux l m.cache fs hs inv hno
    exact ⟨_, by simp only [cacheCalls, e, Res.bind_ok]; rfl⟩
  cases op with
  | addConsumer c => exact ⟨_, _, rfl⟩
  | removeConsumer c => exact ⟨_, _, rfl⟩
  | setLinear t =>
    obtain ⟨p, e⟩ := calls [.setFixedSize true, .setMaxFrames (t * 2 + 20)]
      { n with linear := true, override := true, enabled := true, lastOnly := false } fs hs c (by simp)
    exact ⟨_, _, by simp only [nstep, e, Res.bind_ok]; rfl⟩
  | setCacheMode mode =>
    simp only [nstep]
    split
    · exact ⟨_, _, rfl⟩
    · obtain ⟨fs1, hs1, j, -⟩ := modeFlags_cache n mode (past := ops)
        (nrun_inv ops _ [] (ninv_new _) (cinv_new _) n outs h).2
      obtain ⟨p, e⟩ := calls ([.setFixedSize false, .resetSizeTuning, .setMaxFrames 20,
        .setMaxHistory 20] ++ (if (modeFlags n mode).enabled = true then [] else [.clear]))
        (modeFlags n mode) fs1 hs1 j (by intro b e hm; split at hm <;> simp at hm)
      exact ⟨_, _, by simp only [e, Res.bind_ok]; rfl⟩
  | setCacheOptions a b d =>
    obtain ⟨p, e⟩ := calls (optionCalls a b d) n fs hs c (by
      intro b' e hm
      simp only [optionCalls, List.mem_append] at hm
      rcases hm with (hm | hm) | hm <;> (split at hm <;> simp at hm))
    exact ⟨_, _, by simp only [nstep, e, Res.bind_ok]; rfl⟩
  | getCached k =>
    simp only [nstep]
    split
    · obtain ⟨p, e⟩ := calls [.lookup k] n fs hs c (by simp)
      exact ⟨_, _, by simp only [e, Res.bind_ok]; rfl⟩
    · exact ⟨_, _, rfl⟩
  | store k f =>
    simp only [nstep]
    split
    · obtain ⟨p, e⟩ := calls [.insert k f] n fs hs c (by simp)
      exact ⟨_, _, by simp only [e, Res.bind_ok]; rfl⟩
    · exact ⟨_, _, rfl⟩
  | cacheFrame k f =>
    have := i.lin.2 (h1 k f rfl)
    obtain ⟨p, e⟩ := calls [.insert k f] n fs hs c (by simp)
    exact ⟨_, _, by simp only [nstep, if_pos this, e, Res.bind_ok]; rfl⟩
  | clearCache r =>
    obtain ⟨p, e⟩ := calls (.clear ::
      (if r = true ∧ n.linear = false ∧ n.cache.fixedSize = false then
        [.setMaxFrames (reSeedSize n.cache).toNat] else [])) n fs hs c (by
      intro b' e hm
      rw [List.mem_cons] at hm
      rcases hm with hm | hm
      · cases hm
      · split at hm <;> simp at hm)
    exact ⟨_, _, by simp only [nstep, e, Res.bind_ok]; rfl⟩
  | notifyCache b e =>
    have hb := h2 b e rfl
    have := step_inv (.adjustSize b e) c
    cases hst : step n.cache (.adjustSize b e) with
    | ok p => exact ⟨_, _, by simp only [nstep, cacheCalls, run, hst, Res.bind_ok]; rfl⟩
    | ub => rw [hst] at this; cases this; omega
    | err m => rw [hst] at this; cases this
    | fatal m => rw [hst] at this; cases this
  | evictBytes m =>
    obtain ⟨p, e⟩ := calls [.dropLRUFrames m] n fs hs c (by simp)
    exact ⟨_, _, by simp only [nstep, e, Res.bind_ok]; rfl⟩

end VS.Cache
