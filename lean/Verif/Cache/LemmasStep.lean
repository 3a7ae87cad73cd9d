import Verif.Cache.LemmasOps

/-!
# Every operation keeps the two lists well formed
-/

namespace VS.Cache
open VS

/-- The invariant of a cache. -/
structure Inv (c : Cache) (fs : List (Int × Frame)) (hs : List Int) : Prop where
  rep : Rep c fs hs
  user : 0 ≤ c.userSize
  frames : (fs.length : Int) ≤ c.maxSize
  hist : (hs.length : Int) ≤ c.maxHistory

theorem inv_new : Inv Cache.new [] [] := ⟨rep_new, by decide, by decide, by decide⟩

/-- Only old entries were dropped. -/
def Trim (fs : List (Int × Frame)) (hs : List Int) (fs' : List (Int × Frame)) (hs' : List Int) :
    Prop :=
  fs' <+: fs ∧ (fs'.map (·.1) ++ hs') <+: (fs.map (·.1) ++ hs)

theorem Trim.refl (fs hs) : Trim fs hs fs hs := ⟨List.prefix_rfl, List.prefix_rfl⟩

theorem Trim.trans {fs hs fs1 hs1 fs2 hs2} (a : Trim fs hs fs1 hs1) (b : Trim fs1 hs1 fs2 hs2) :
    Trim fs hs fs2 hs2 := ⟨b.1.trans a.1, b.2.trans a.2⟩

theorem trim_evict (fs : List (Int × Frame)) (hs : List Int) (m h : Nat) :
    Trim fs hs (fs.take m) (((fs.drop m).map (·.1) ++ hs).take h) := by
  refine ⟨List.take_prefix _ _, ?_⟩
  conv => rhs; rw [← List.take_append_drop m fs]
  rw [List.map_append, List.append_assoc, List.prefix_append_right_inj]
  exact List.take_prefix _ _

/-- Changing only settings keeps the lists. -/
theorem Rep.congr {c d : Cache} {fs hs} (r : Rep c fs hs) (h : d.hash = c.hash)
    (h1 : d.first = c.first) (h2 : d.weak = c.weak) (h3 : d.last = c.last)
    (h4 : d.currentSize = c.currentSize) (h5 : d.historySize = c.historySize)
    (h6 : d.currentBytes = c.currentBytes) : Rep d fs hs :=
  ⟨h.trans r.hash, r.nd, h1.trans r.first, h2.trans r.weak, h3.trans r.last, h4.trans r.size,
   h5.trans r.hist, h6.trans r.bytes⟩

/-- Eviction down to the limits re-establishes the invariant. -/
theorem evict_inv {c : Cache} {fs hs} (r : Rep c fs hs) (hu : 0 ≤ c.userSize)
    (h0 : 0 ≤ c.maxSize) (h1 : 0 ≤ c.maxHistory) :
    ∃ c' hs' freed, evictFrames c c.maxSize none = .ok (c', freed) ∧
      Inv c' (fs.take c.maxSize.toNat) hs' ∧ Trim fs hs (fs.take c.maxSize.toNat) hs' ∧
      Same c c' := by
  have e0 : c.maxSize = (c.maxSize.toNat : Int) := by omega
  obtain ⟨freed, c', e, r', s⟩ := evictAll_rep c.maxSize.toNat h1 r
  rw [← e0] at e
  refine ⟨c', _, freed, e, ⟨r', by rw [s.userSize]; exact hu, ?_, ?_⟩, trim_evict _ _ _ _, s⟩
  · rw [s.maxSize, List.length_take]; omega
  · rw [s.maxHistory, List.length_take]; omega

theorem setMaxFrames_inv {c : Cache} {fs hs} {m : Int} (i : Inv c fs hs) (h0 : 0 ≤ m) :
    ∃ c' hs', setMaxFrames c m = .ok c' ∧ Inv c' (fs.take m.toNat) hs' ∧
      Trim fs hs (fs.take m.toNat) hs' ∧ Same { c with maxSize := m } c' := by
  have h1 : 0 ≤ c.maxHistory := by have := i.hist; omega
  obtain ⟨c', hs', freed, e, i', t, s⟩ := evict_inv (c := { c with maxSize := m })
    (i.rep.congr rfl rfl rfl rfl rfl rfl rfl) i.user h0 h1
  exact ⟨c', hs', by simp only [setMaxFrames, e, Res.bind_ok], i', t, s⟩

theorem setMaxHistory_inv {c : Cache} {fs hs} {m : Int} (i : Inv c fs hs) (h0 : 0 ≤ m) :
    ∃ c' hs', setMaxHistory c m = .ok c' ∧ Inv c' fs hs' ∧
      Trim fs hs fs hs' ∧ Same { c with maxHistory := m } c' := by
  have h1 : 0 ≤ c.maxSize := by have := i.frames; omega
  have h2 : fs.take c.maxSize.toNat = fs := List.take_of_length_le (by have := i.frames; omega)
  obtain ⟨c', hs', freed, e, i', t, s⟩ := evict_inv (c := { c with maxHistory := m })
    (i.rep.congr rfl rfl rfl rfl rfl rfl rfl) i.user h1 h0
  simp only [h2] at i' t
  exact ⟨c', hs', by simp only at e; simp only [setMaxHistory, e, Res.bind_ok], i', t, s⟩

theorem clear_inv {c : Cache} {fs hs} (i : Inv c fs hs) : Inv (clear c) [] [] :=
  ⟨⟨rfl, List.nodup_nil, rfl, rfl, rfl, rfl, rfl, rfl⟩, i.user,
   by have := i.frames; simp only [clear]; simp; omega,
   by have := i.hist; simp only [clear]; simp; omega⟩

theorem insert_inv {c : Cache} {fs hs} (k : Int) (f : Frame) (i : Inv c fs hs) :
    ∃ c' hs', insert c k f = .ok c' ∧
      Inv c' (((k, f) :: fs.filter (fun p => p.1 ≠ k)).take c.maxSize.toNat) hs' ∧
      Trim ((k, f) :: fs.filter (fun p => p.1 ≠ k)) (hs.filter (· ≠ k))
        (((k, f) :: fs.filter (fun p => p.1 ≠ k)).take c.maxSize.toNat) hs' ∧ Same c c' := by
  obtain ⟨c1, e1, r1, s1⟩ := remove_rep k i.rep
  obtain ⟨c2, e2, r2, s2⟩ := pushFront_rep (f := f) (k := k) r1
    (by simp [List.mem_map, List.mem_filter]) (by simp)
  have s := s1.trans s2
  obtain ⟨c3, hs', freed, e3, i3, t, s3⟩ := evict_inv r2
    (by rw [s.userSize]; exact i.user) (by rw [s.maxSize]; have := i.frames; omega)
    (by rw [s.maxHistory]; have := i.hist; omega)
  refine ⟨c3, hs', ?_, by rw [s.maxSize] at i3; exact i3, by rw [s.maxSize] at t; exact t, s.trans s3⟩
  simp only [insert, e1, Res.bind_ok, e2, e3]

theorem Inv.congr {c d : Cache} {fs hs} (i : Inv c fs hs) (s : Same c d) (r : Rep d fs hs) :
    Inv d fs hs :=
  ⟨r, by rw [s.userSize]; exact i.user, by rw [s.maxSize]; exact i.frames,
   by rw [s.maxHistory]; exact i.hist⟩

/-- What a lookup does. -/
theorem lookup_inv {c : Cache} {fs hs} (k : Int) (i : Inv c fs hs) :
    (∃ a f b c', fs = a ++ (k, f) :: b ∧ object c k = .ok (c', some f) ∧
      Inv c' ((k, f) :: (a ++ b)) hs ∧ Same { c with hits := c.hits + 1 } c') ∨
    (k ∉ fs.map (·.1) ∧ ∃ c', object c k = .ok (c', none) ∧ Inv c' fs hs ∧ c'.maxSize = c.maxSize ∧
      c'.maxHistory = c.maxHistory ∧ c'.fixedSize = c.fixedSize ∧ c'.userSize = c.userSize) := by
  by_cases h1 : k ∈ fs.map (·.1)
  · obtain ⟨a, f, b, rfl⟩ := mem_split h1
    obtain ⟨c', e, r, s⟩ := object_hit i.rep (by rw [i.rep.size]; exact i.frames)
      (by rw [i.rep.hist]; exact i.hist)
    refine Or.inl ⟨a, f, b, c', rfl, e, ⟨r, ?_, ?_, ?_⟩, s⟩
    · have := i.user; have h := s.userSize; simp only at h; omega
    · have := i.frames; have h := s.maxSize; simp only at h; simp at this ⊢; omega
    · have := i.hist; have h := s.maxHistory; simp only at h; omega
  · refine Or.inr ⟨h1, ?_⟩
    by_cases h2 : k ∈ hs
    · exact ⟨_, object_near i.rep h2, ⟨i.rep.congr rfl rfl rfl rfl rfl rfl rfl, i.user, i.frames,
        i.hist⟩, rfl, rfl, rfl, rfl⟩
    · exact ⟨_, object_far i.rep h1 h2, ⟨i.rep.congr rfl rfl rfl rfl rfl rfl rfl, i.user, i.frames,
        i.hist⟩, rfl, rfl, rfl, rfl⟩

/-- The bytes given back by a trim. -/
theorem dropLRU_inv {c : Cache} {fs hs} (n : Nat) (i : Inv c fs hs) :
    ∃ m freed c' hs', dropLRUFrames c n = .ok (c', freed) ∧ Inv c' (fs.take m) hs' ∧
      Trim fs hs (fs.take m) hs' ∧ Kept fs 0 (some n) 0 m freed ∧
      c'.userSize = c.userSize ∧ c'.maxHistory = c.maxHistory ∧ c'.fixedSize = c.fixedSize ∧
      (c'.maxSize = c.maxSize ∨
        (c'.maxSize ≤ c.maxSize ∧ 20 ≤ c'.maxSize ∧ c.userSize ≤ c'.maxSize)) := by
  have h1 : 0 ≤ c.maxHistory := by have := i.hist; omega
  obtain ⟨m, freed, c1, e, hk, r1, s1⟩ := evictFrames_rep 0 (some n) h1 i.rep
  have e' : evictFrames c 0 (some n) = .ok (c1, freed) := e
  have hf := i.frames
  have hlen : ((fs.take m).length : Int) ≤ fs.length := by rw [List.length_take]; omega
  have hu := i.user
  have hh : (((((fs.drop m).map (·.1) ++ hs).take c.maxHistory.toNat).length : Nat) : Int) ≤
      c.maxHistory := by rw [List.length_take]; omega
  unfold dropLRUFrames
  rw [e']
  simp only [Res.bind_ok]
  have q1 := s1.maxSize
  have q2 := s1.userSize
  have q3 := s1.maxHistory
  by_cases h : c1.maxSize > reSeedSize c1
  · rw [if_pos h]
    simp only [reSeedSize] at h
    refine ⟨m, freed, _, _, rfl, ⟨r1.congr rfl rfl rfl rfl rfl rfl rfl, ?_, ?_, ?_⟩,
      trim_evict _ _ _ _, hk, s1.userSize, s1.maxHistory, s1.fixedSize, Or.inr ?_⟩
    · simp only; omega
    · simp only [r1.size]; omega
    · simp only; omega
    · simp only [reSeedSize, r1.size]
      omega
  · rw [if_neg h]
    refine ⟨m, freed, c1, _, rfl, ⟨r1, ?_, ?_, ?_⟩, trim_evict _ _ _ _, hk, s1.userSize,
      s1.maxHistory, s1.fixedSize, Or.inl q1⟩
    · omega
    · omega
    · omega

/-- The statistics play no part in the lists. -/
theorem clearStats_inv {c : Cache} {fs hs} (i : Inv c fs hs) : Inv (clearStats c) fs hs :=
  ⟨i.rep.congr rfl rfl rfl rfl rfl rfl rfl, i.user, i.frames, i.hist⟩

theorem recommend_inv {c : Cache} {fs hs} (i : Inv c fs hs) :
    Inv (recommendSize c).1 fs hs ∧ (recommendSize c).1.maxSize = c.maxSize ∧
      (recommendSize c).1.userSize = c.userSize ∧ (recommendSize c).1.maxHistory = c.maxHistory := by
  unfold recommendSize
  simp only
  split
  · exact ⟨i, rfl, rfl, rfl⟩
  · split
    · exact ⟨i, rfl, rfl, rfl⟩
    · split
      · exact ⟨clearStats_inv i, rfl, rfl, rfl⟩
      · split
        · exact ⟨clearStats_inv i, rfl, rfl, rfl⟩
        · exact ⟨clearStats_inv i, rfl, rfl, rfl⟩

/-- The result of an automatic adjustment: fine, or the maximum size would leave `int`. -/
inductive Adj (c : Cache) (fs : List (Int × Frame)) (hs : List Int) : Res Cache → Prop where
  | ok (c' fs' hs') (i : Inv c' fs' hs') (t : Trim fs hs fs' hs')
      (u : c'.userSize = c.userSize) (fl : min c.maxSize c.userSize ≤ c'.maxSize)
      (h : c.maxHistory ≤ c'.maxHistory) : Adj c fs hs (.ok c')
  | big (h : INT_MAX < c.maxSize + 2) : Adj c fs hs .ub

theorem applyAction_inv {c : Cache} {fs hs} (b : Bool) (a : Action) (i : Inv c fs hs) :
    Adj c fs hs (applyAction c b a) := by
  have hf := i.frames
  have hu := i.user
  cases a with
  | clear =>
    obtain ⟨c', hs', e, i', t, s⟩ := setMaxFrames_inv (m := max (c.maxSize - 2) c.userSize)
      (clear_inv i) (by omega)
    simp only [applyAction, e]
    refine .ok _ _ _ i' (Trim.trans ⟨List.nil_prefix, List.nil_prefix⟩ t) s.userSize ?_
      (by rw [s.maxHistory]; exact Int.le_refl _)
    rw [s.maxSize]; simp only; omega
  | grow =>
    simp only [applyAction]
    split
    · by_cases h : INT_MAX < c.maxSize + 2
      · rw [i32_ub (by simp only [InI32, INT_MIN, INT_MAX] at *; omega)]
        exact .big h
      · rw [i32_ok (by simp only [InI32, INT_MIN, INT_MAX] at *; omega)]
        obtain ⟨c', hs', e, i', t, s⟩ := setMaxFrames_inv (m := c.maxSize + 2) i (by omega)
        simp only [Res.bind_ok, e]
        refine .ok _ _ _ i' t s.userSize ?_ (by rw [s.maxHistory]; exact Int.le_refl _)
        rw [s.maxSize]; simp only; omega
    · exact .ok c fs hs i (Trim.refl _ _) rfl (by omega) (Int.le_refl _)
  | shrink =>
    obtain ⟨c', hs', e, i', t, s⟩ := setMaxFrames_inv (m := max (c.maxSize - 1) c.userSize) i
      (by omega)
    simp only [applyAction, e]
    refine .ok _ _ _ i' t s.userSize ?_ (by rw [s.maxHistory]; exact Int.le_refl _)
    rw [s.maxSize]; simp only; omega
  | noChange =>
    exact .ok c fs hs i (Trim.refl _ _) rfl (by omega) (Int.le_refl _)

theorem adjustNow_inv {c : Cache} {fs hs} (b : Bool) (i : Inv c fs hs) :
    Adj c fs hs (adjustNow c b) := by
  obtain ⟨i1, q1, q2, q3⟩ := recommend_inv i
  have ha := applyAction_inv b (recommendSize c).2 i1
  unfold adjustNow
  simp only
  generalize applyAction (recommendSize c).1 b (recommendSize c).2 = r at ha
  cases ha with
  | big h => exact .big (by rw [← q1]; exact h)
  | ok c1 fs1 hs1 i1' t u fl hh =>
    simp only [Res.bind_ok, growHistory]
    have hf := i1'.frames
    split
    · next hlt =>
      obtain ⟨c', hs', e, i', t', s⟩ := setMaxHistory_inv (m := c1.maxSize) i1' (by omega)
      rw [e]
      refine .ok c' _ _ i' (t.trans t') ?_ ?_ ?_
      · rw [s.userSize]; simp only; omega
      · rw [s.maxSize]; simp only; omega
      · rw [s.maxHistory]; simp only; omega
    · exact .ok c1 _ _ i1' t (by omega) (by omega) (by omega)

theorem adjustSize_inv {c : Cache} {fs hs} (b : Bool) (e : Nat) (i : Inv c fs hs) :
    Adj c fs hs (adjustSize c b e) := by
  have hf := i.frames
  unfold adjustSize
  split
  · exact .ok c _ _ i (Trim.refl _ _) rfl (by omega) (Int.le_refl _)
  · split
    · have i' : Inv { c with lastActivity := e } fs hs :=
        ⟨i.rep.congr rfl rfl rfl rfl rfl rfl rfl, i.user, i.frames, i.hist⟩
      have := adjustNow_inv b i'
      generalize adjustNow { c with lastActivity := e } b = r at this
      cases this with
      | big h => exact .big h
      | ok c1 fs1 hs1 i1' t u fl hh => exact .ok _ _ _ i1' t u fl hh
    · split
      · exact .ok c _ _ i (Trim.refl _ _) rfl (by omega) (Int.le_refl _)
      · exact adjustNow_inv b i

/-- The effect of one operation on the two lists. -/
inductive Next (c : Cache) (fs : List (Int × Frame)) (hs : List Int) :
    Op → Option Frame → List (Int × Frame) → List Int → Prop where
  | insert (k f hs') (t : Trim ((k, f) :: fs.filter (fun p => p.1 ≠ k)) (hs.filter (· ≠ k))
        (((k, f) :: fs.filter (fun p => p.1 ≠ k)).take c.maxSize.toNat) hs') :
      Next c fs hs (.insert k f) none
        (((k, f) :: fs.filter (fun p => p.1 ≠ k)).take c.maxSize.toNat) hs'
  | hit (a k f b) (h : fs = a ++ (k, f) :: b) : Next c fs hs (.lookup k) (some f)
      ((k, f) :: (a ++ b)) hs
  | miss (k) (h : k ∉ fs.map (·.1)) : Next c fs hs (.lookup k) none fs hs
  | clear : Next c fs hs .clear none [] []
  | other (op fs' hs') (h1 : ∀ k f, op ≠ .insert k f) (h2 : ∀ k, op ≠ .lookup k) (h3 : op ≠ .clear)
      (t : Trim fs hs fs' hs') : Next c fs hs op none fs' hs'

/-- The outcome of one operation. -/
inductive Out (c : Cache) (fs : List (Int × Frame)) (hs : List Int) (op : Op) :
    Res (Cache × Option Frame) → Prop where
  | ok (c' o fs' hs') (i : Inv c' fs' hs') (n : Next c fs hs op o fs' hs') :
      Out c fs hs op (.ok (c', o))
  | big (e : Nat) (b : Bool) (ho : op = .adjustSize b e) (h : INT_MAX < c.maxSize + 2) :
      Out c fs hs op .ub

theorem step_inv {c : Cache} {fs hs} (op : Op) (i : Inv c fs hs) : Out c fs hs op (step c op) := by
  cases op with
  | insert k f =>
    obtain ⟨c', hs', e, i', t, s⟩ := insert_inv k f i
    simp only [step, e, Res.bind_ok]
    exact .ok _ _ _ _ i' (.insert _ _ _ t)
  | lookup k =>
    rcases lookup_inv k i with ⟨a, f, b, c', h, e, i', s⟩ | ⟨h, c', e, i', -⟩
    · simp only [step, e]; exact .ok _ _ _ _ i' (.hit _ _ _ _ h)
    · simp only [step, e]; exact .ok _ _ _ _ i' (.miss _ h)
  | setMaxFrames m =>
    obtain ⟨c', hs', e, i', t, s⟩ := setMaxFrames_inv (m := m) i (by omega)
    simp only [step, e, Res.bind_ok]
    exact .ok _ _ _ _ i' (.other _ _ _ (by simp) (by simp) (by simp) t)
  | setUserMaxFrames m =>
    have i0 : Inv { c with userSize := m } fs hs :=
      ⟨i.rep.congr rfl rfl rfl rfl rfl rfl rfl, by simp, i.frames, i.hist⟩
    obtain ⟨c', hs', e, i', t, s⟩ := setMaxFrames_inv (m := m) i0 (by omega)
    simp only [step, setUserMaxFrames, e, Res.bind_ok]
    exact .ok _ _ _ _ i' (.other _ _ _ (by simp) (by simp) (by simp) t)
  | resetSizeTuning =>
    refine .ok _ _ fs hs ⟨i.rep.congr rfl rfl rfl rfl rfl rfl rfl, by simp, i.frames, i.hist⟩
      (.other _ _ _ (by simp) (by simp) (by simp) (Trim.refl _ _))
  | setMaxHistory m =>
    obtain ⟨c', hs', e, i', t, s⟩ := setMaxHistory_inv (m := m) i (by omega)
    simp only [step, e, Res.bind_ok]
    exact .ok _ _ _ _ i' (.other _ _ _ (by simp) (by simp) (by simp) t)
  | setFixedSize b =>
    refine .ok _ _ fs hs ⟨i.rep.congr rfl rfl rfl rfl rfl rfl rfl, i.user, i.frames, i.hist⟩
      (.other _ _ _ (by simp) (by simp) (by simp) (Trim.refl _ _))
  | clear => exact .ok _ _ _ _ (clear_inv i) .clear
  | adjustSize b e =>
    have := adjustSize_inv b e i
    simp only [step]
    generalize adjustSize c b e = r at this
    cases this with
    | big h => exact .big e b rfl h
    | ok c1 fs1 hs1 i1 t u fl hh =>
      exact .ok _ _ _ _ i1 (.other _ _ _ (by simp) (by simp) (by simp) t)
  | dropLRUFrames n =>
    obtain ⟨m, freed, c', hs', e, i', t, -⟩ := dropLRU_inv n i
    simp only [step, e, Res.bind_ok]
    exact .ok _ _ _ _ i' (.other _ _ _ (by simp) (by simp) (by simp) t)

end VS.Cache
