import Verif.Cache.LemmasHistory

/-!
# Properties of the frame cache: C10, C11, C12
-/

namespace VS.Cache
open VS

/-- Is the outcome undefined behaviour? -/
def isUb {α} : Res α → Bool
  | .ub => true
  | _ => false

/-- The answers of a history, for the examples. -/
def answers (ops : List Op) : Option (List (Option Frame)) :=
  match run Cache.new ops with
  | .ok p => some p.2
  | _ => none

/-- **C10.** Whatever the history, a lookup that finds a frame finds the one last stored for that
number and not cleared since. -/
theorem C10_cache_transparent (ops : List Op) (c : Cache) (outs : List (Option Frame))
    (h : run Cache.new ops = .ok (c, outs)) (i : Nat) (k : Int) (f : Frame)
    (hop : ops[i]? = some (.lookup k)) (hout : outs[i]? = some (some f)) :
    Spec.stored (ops.take i) k = some f := by
  have hi : i < ops.length := (List.getElem?_eq_some_iff.1 hop).1
  have e : ops = ops.take i ++ .lookup k :: ops.drop (i + 1) := by
    conv => lhs; rw [← List.take_append_drop i ops]
    congr 1
    rw [List.drop_eq_getElem_cons hi]
    rw [List.getElem?_eq_getElem hi] at hop
    rw [Option.some.inj hop]
  rw [e] at h
  obtain ⟨c1, o1, o2, e1, e2, e3⟩ := run_append _ _ _ _ _ h
  have hl := run_length _ _ _ _ e1
  obtain ⟨fs, hs, inv, ag, -, -⟩ := run_inv _ _ _ _ inv_new c1 o1 e1
  have ag' := ag (fun _ => none) (fun _ _ hm => by cases hm)
  have hs1 := step_inv (.lookup k) inv
  simp only [run] at e2
  generalize step c1 (.lookup k) = r at hs1 e2
  cases hs1 with
  | big => cases e2
  | ok c2 o fs2 hs2 i2 n =>
    simp only [Res.bind_ok] at e2
    have ho : o2.head? = some o := by
      cases h2 : run c2 (ops.drop (i + 1)) with
      | ok q =>
        rw [h2] at e2
        simp only [Res.bind_ok, Res.ok.injEq, Prod.mk.injEq] at e2
        rw [← e2.2]; rfl
      | err m => rw [h2] at e2; cases e2
      | fatal m => rw [h2] at e2; cases e2
      | ub => rw [h2] at e2; cases e2
    have ho2 : outs[i]? = some o := by
      have h4 : o1.length = i := by rw [hl, List.length_take]; omega
      rw [e3, List.getElem?_append_right (by omega), h4, Nat.sub_self, ← List.head?_eq_getElem?]
      exact ho
    rw [ho2] at hout
    cases hout
    rcases next_out n with ⟨g, hg, hm⟩ | ⟨hg, -⟩
    · cases hg
      exact ag' k _ hm
    · cases hg

example : answers [.insert 5 ⟨1, 10⟩, .insert 5 ⟨2, 20⟩, .lookup 5, .lookup 6, .clear, .lookup 5] =
    some [none, none, some ⟨2, 20⟩, none, none, none] := by decide +kernel

/-- The frame held for a number. -/
def held (c : Cache) (k : Int) : Option Frame := (c.hash k).bind (·.frame)

/-- **C11.** After every history the frames held (`frames`) are at most the configured number, the
numbers remembered without a frame (`past`) likewise, nothing appears twice, and the counters of
frames, remembered numbers and bytes are exact. -/
theorem C11_limits (ops : List Op) (c : Cache) (outs : List (Option Frame))
    (h : run Cache.new ops = .ok (c, outs)) :
    ∃ (frames : List (Int × Frame)) (past : List Int),
      (∀ k f, (k, f) ∈ frames ↔ held c k = some f) ∧
      (∀ k, k ∈ past ↔ (c.hash k).isSome = true ∧ held c k = none) ∧
      (frames.map (·.1) ++ past).Nodup ∧
      c.currentSize = frames.length ∧ (frames.length : Int) ≤ c.maxSize ∧
      c.historySize = past.length ∧ (past.length : Int) ≤ c.maxHistory ∧
      c.currentBytes = (frames.map (fun p => p.2.bytes)).sum := by
  obtain ⟨fs, hs, inv, -, -, -⟩ := run_inv _ _ _ _ inv_new c outs h
  have r := inv.rep
  refine ⟨fs, hs, ?_, ?_, r.nd, r.size, inv.frames, r.hist, inv.hist, r.bytes⟩
  · intro k f
    constructor
    · intro hm
      obtain ⟨a, b, rfl⟩ := List.append_of_mem hm
      simp [held, r.at]
    · intro hh
      by_cases h1 : k ∈ fs.map (·.1)
      · obtain ⟨a, g, b, rfl⟩ := mem_split h1
        simp only [held, r.at, Option.bind_some, Option.some.injEq] at hh
        subst hh; simp
      · by_cases h2 : k ∈ hs
        · obtain ⟨a, b, rfl⟩ := List.append_of_mem h2
          simp [held, r.atHist] at hh
        · simp [held, r.none h1 h2] at hh
  · intro k
    constructor
    · intro hm
      obtain ⟨a, b, rfl⟩ := List.append_of_mem hm
      simp [held, r.atHist]
    · rintro ⟨h1, h2⟩
      by_cases m1 : k ∈ fs.map (·.1)
      · obtain ⟨a, g, b, rfl⟩ := mem_split m1
        simp [held, r.at] at h2
      · by_cases m2 : k ∈ hs
        · exact m2
        · simp [r.none m1 m2] at h1

/-- **C11.** No history follows a dangling pointer or loops: the only operation that can fail is an
automatic adjustment when the configured number of frames is within two of the largest `int`. -/
theorem C11_no_crash (ops : List Op) :
    (∃ c outs, run Cache.new ops = .ok (c, outs)) ∨
    (∃ pre b e post c outs, ops = pre ++ .adjustSize b e :: post ∧
      run Cache.new pre = .ok (c, outs) ∧ INT_MAX < c.maxSize + 2 ∧ run Cache.new ops = .ub) := by
  have gen : ∀ (ops : List Op) (c : Cache) (fs hs), Inv c fs hs →
      (∃ c' outs, run c ops = .ok (c', outs)) ∨
      (∃ pre b e post c' outs, ops = pre ++ .adjustSize b e :: post ∧
        run c pre = .ok (c', outs) ∧ INT_MAX < c'.maxSize + 2 ∧ run c ops = .ub) := by
    intro ops
    induction ops with
    | nil => intro c fs hs _; exact Or.inl ⟨c, [], rfl⟩
    | cons op t ih =>
      intro c fs hs i
      have ho := step_inv op i
      cases hst : step c op with
      | ok p =>
        rw [hst] at ho
        cases ho with
        | ok c1 o fs1 hs1 i1 n =>
          rcases ih c1 fs1 hs1 i1 with ⟨c', outs, e⟩ | ⟨pre, b, ex, post, c', outs, e1, e2, e3, e4⟩
          · exact Or.inl ⟨c', o :: outs, by simp only [run, hst, Res.bind_ok, e]⟩
          · refine Or.inr ⟨op :: pre, b, ex, post, c', o :: outs, by rw [e1]; rfl, ?_, e3, ?_⟩
            · simp only [run, hst, Res.bind_ok, e2]
            · simp only [run, hst, Res.bind_ok, e4, Res.bind_ub]
      | ub =>
        rw [hst] at ho
        cases ho with
        | big ex b hop hbig =>
          subst hop
          refine Or.inr ⟨[], b, ex, t, c, [], rfl, rfl, hbig, ?_⟩
          simp only [run, hst, Res.bind_ub]
      | err m => rw [hst] at ho; cases ho
      | fatal m => rw [hst] at ho; cases ho
  exact gen ops _ _ _ inv_new

/-- **C11**, defect: a node told to keep the largest possible number of frames overflows `int` at
the next automatic growth (`getMaxFrames() + 2`, src/core/vscore.cpp:2591). -/
theorem C11_growth_overflows :
    run Cache.new ([.setMaxFrames 0, .insert 7 ⟨1, 10⟩, .setUserMaxFrames 2147483647] ++
      List.replicate 30 (.lookup 7) ++ [.adjustSize true 1]) = .ub := by
  have h : isUb (run Cache.new ([.setMaxFrames 0, .insert 7 ⟨1, 10⟩,
      .setUserMaxFrames 2147483647] ++ List.replicate 30 (.lookup 7) ++
      [.adjustSize true 1])) = true := by decide +kernel
  revert h
  generalize run Cache.new _ = r
  intro h
  cases r with
  | ub => rfl
  | ok _ => cases h
  | err _ => cases h
  | fatal _ => cases h

/-- Calls made without the user asking: use of the cache, automatic adjustment, memory pressure
and flushing. -/
def Spec.automatic : Op → Bool
  | .insert .. | .lookup _ | .adjustSize .. | .dropLRUFrames _ | .clear => true
  | _ => false

/-- **C11.** A number of frames asked for by the user is a floor for every automatic change. -/
theorem C11_user_floor (pre auto : List Op) (m : Nat) (c : Cache) (outs : List (Option Frame))
    (h : run Cache.new (pre ++ .setUserMaxFrames m :: auto) = .ok (c, outs))
    (ha : ∀ op ∈ auto, Spec.automatic op = true) : (m : Int) ≤ c.maxSize := by
  have gen : ∀ (ops : List Op) (c : Cache) (fs hs), Inv c fs hs →
      (∀ op ∈ ops, Spec.automatic op = true) → (m : Int) ≤ c.userSize → c.userSize ≤ c.maxSize →
      ∀ c' outs, run c ops = .ok (c', outs) → (m : Int) ≤ c'.maxSize := by
    intro ops
    induction ops with
    | nil =>
      intro c fs hs _ _ h1 h2 c' outs h
      simp only [run, Res.ok.injEq, Prod.mk.injEq] at h
      rw [← h.1]; omega
    | cons op t ih =>
      intro c fs hs i ha h1 h2 c' outs h
      have hop := ha op (by simp)
      have hat : ∀ op ∈ t, Spec.automatic op = true := fun o ho => ha o (List.mem_cons_of_mem _ ho)
      -- one step
      have key : ∀ c1 o, step c op = .ok (c1, o) → c1.userSize = c.userSize ∧
          c.userSize ≤ c1.maxSize := by
        intro c1 o hst
        cases op with
        | insert k f =>
          obtain ⟨c2, hs', e, i', t, s⟩ := insert_inv k f i
          simp only [step, e, Res.bind_ok, Res.ok.injEq, Prod.mk.injEq] at hst
          rw [← hst.1, s.userSize, s.maxSize]; exact ⟨rfl, h2⟩
        | lookup k =>
          rcases lookup_inv k i with ⟨a, f, b, c2, _, e, i', s⟩ | ⟨_, c2, e, i', q1, q2, q3, q4⟩
          · simp only [step, e, Res.ok.injEq, Prod.mk.injEq] at hst
            rw [← hst.1, s.userSize, s.maxSize]; exact ⟨rfl, h2⟩
          · simp only [step, e, Res.ok.injEq, Prod.mk.injEq] at hst
            rw [← hst.1, q4, q1]; exact ⟨rfl, h2⟩
        | clear =>
          simp only [step, Res.ok.injEq, Prod.mk.injEq] at hst
          rw [← hst.1]; exact ⟨rfl, h2⟩
        | adjustSize b e =>
          have := adjustSize_inv b e i
          simp only [step] at hst
          generalize adjustSize c b e = r at this hst
          cases this with
          | big h => cases hst
          | ok c2 fs1 hs1 i1 t u fl hh =>
            simp only [Res.bind_ok, Res.ok.injEq, Prod.mk.injEq] at hst
            rw [← hst.1]
            exact ⟨u, by omega⟩
        | dropLRUFrames n =>
          obtain ⟨m', freed, c2, hs', e, i', t, hk, u, q1, q2, q3⟩ := dropLRU_inv n i
          simp only [step, e, Res.bind_ok, Res.ok.injEq, Prod.mk.injEq] at hst
          rw [← hst.1]
          exact ⟨u, by omega⟩
        | setMaxFrames m => simp [Spec.automatic] at hop
        | setUserMaxFrames m => simp [Spec.automatic] at hop
        | resetSizeTuning => simp [Spec.automatic] at hop
        | setMaxHistory m => simp [Spec.automatic] at hop
        | setFixedSize b => simp [Spec.automatic] at hop
      have ho := step_inv op i
      simp only [run] at h
      cases hst : step c op with
      | ok p =>
        rw [hst] at ho h
        cases ho with
        | ok c1 o fs1 hs1 i1 n =>
          simp only [Res.bind_ok] at h
          obtain ⟨k1, k2⟩ := key c1 o hst
          cases h2 : run c1 t with
          | ok q =>
            exact ih c1 fs1 hs1 i1 hat (by omega) (by omega) c' q.2 (by
              rw [h2] at h ⊢
              simp only [Res.bind_ok, Res.ok.injEq, Prod.mk.injEq] at h
              rw [← h.1])
          | err m => rw [h2] at h; cases h
          | fatal m => rw [h2] at h; cases h
          | ub => rw [h2] at h; cases h
      | ub => rw [hst] at h; cases h
      | err m => rw [hst] at h; cases h
      | fatal m => rw [hst] at h; cases h
  obtain ⟨c1, o1, o2, e1, e2, -⟩ := run_append _ _ _ _ _ h
  obtain ⟨fs, hs, inv, -, -, -⟩ := run_inv _ _ _ _ inv_new c1 o1 e1
  have i0 : Inv { c1 with userSize := m } fs hs :=
    ⟨inv.rep.congr rfl rfl rfl rfl rfl rfl rfl, by simp, inv.frames, inv.hist⟩
  obtain ⟨c2, hs', e, i', t, s⟩ := setMaxFrames_inv (m := m) i0 (by omega)
  simp only [run, step, setUserMaxFrames, e, Res.bind_ok] at e2
  have s1 := s.userSize
  have s2 := s.maxSize
  simp only at s1 s2
  cases h2 : run c2 auto with
  | ok q =>
    rw [h2] at e2
    simp only [Res.bind_ok, Res.ok.injEq, Prod.mk.injEq] at e2
    exact gen auto c2 _ _ i' ha (by omega) (by omega) c q.2 (by rw [h2, ← e2.1])
  | err m => rw [h2] at e2; cases e2
  | fatal m => rw [h2] at e2; cases e2
  | ub => rw [h2] at e2; cases e2

/-- **C11.** Trimming under memory pressure reports exactly the bytes it released, releases at
least what was asked for unless the cache is now empty, and never drops a frame once enough was
released: without the most recently used of the dropped frames it would be too little. -/
theorem C11_trim_bytes (ops : List Op) (c : Cache) (outs : List (Option Frame))
    (h : run Cache.new ops = .ok (c, outs)) (want : Nat) :
    ∃ c' freed, dropLRUFrames c want = .ok (c', freed) ∧
      freed + c'.currentBytes = c.currentBytes ∧
      (want ≤ freed ∨ c'.currentSize = 0) ∧
      (c'.currentSize < c.currentSize → ∃ f k, held c k = some f ∧ held c' k = none ∧
        freed - f.bytes < want) := by
  obtain ⟨fs, hs, inv, -, -, -⟩ := run_inv _ _ _ _ inv_new c outs h
  obtain ⟨m, freed, c', hs', e, i', t, hk, -⟩ := dropLRU_inv want inv
  refine ⟨c', freed, e, ?_, ?_, ?_⟩
  · rw [i'.rep.bytes, inv.rep.bytes, hk.freed, Nat.zero_add, Nat.add_comm, ← sumBytes_append,
      List.take_append_drop]
  · rcases hk.stop with h | h
    · right
      rw [i'.rep.size]
      have : m = 0 := by omega
      simp [this]
    · left
      simpa [underBudget] using h
  · intro hlt
    have hm : m < fs.length := by
      rw [i'.rep.size, inv.rep.size, List.length_take] at hlt
      omega
    obtain ⟨⟨k, f⟩, hp, hq⟩ := hk.need hm
    have hsplit : fs = fs.take m ++ (k, f) :: fs.drop (m + 1) := by
      conv => lhs; rw [← List.take_append_drop m fs]
      congr 1
      rw [List.drop_eq_getElem_cons hm]
      rw [List.getElem?_eq_getElem hm] at hp
      rw [Option.some.inj hp]
    have r := inv.rep
    rw [hsplit] at r
    have nd := r.nd
    refine ⟨f, k, by simp [held, r.at], ?_, ?_⟩
    · -- no frame for `k` any more
      have hk1 : k ∉ (fs.take m).map (·.1) := by
        simp only [List.map_append, List.map_cons, List.append_assoc, List.nodup_append] at nd
        intro hm1
        exact nd.2.2 k hm1 k (by simp) rfl
      unfold held
      by_cases hk2 : k ∈ hs'
      · obtain ⟨a, b, rfl⟩ := List.append_of_mem hk2
        rw [i'.rep.atHist]; rfl
      · rw [i'.rep.none hk1 hk2]; rfl
    · have hd : fs.drop m = (k, f) :: fs.drop (m + 1) := by
        rw [List.drop_eq_getElem_cons hm]
        rw [List.getElem?_eq_getElem hm] at hp
        rw [Option.some.inj hp]
      rw [hk.freed, hd, sumBytes_cons]
      simp only [underBudget, decide_eq_true_eq] at hq
      show 0 + (f.bytes + sumBytes (fs.drop (m + 1))) - f.bytes < want
      omega

example : (match (do
      let p ← run Cache.new [.insert 1 ⟨1, 100⟩, .insert 2 ⟨2, 200⟩, .insert 3 ⟨3, 300⟩]
      dropLRUFrames p.1 150) with
    | .ok q => (q.2, q.1.currentSize, q.1.historySize, q.1.currentBytes)
    | _ => (0, 0, 0, 0)) = (300, 1, 2, 300) := by decide +kernel

/-- **C12.** After every history the frames held, followed by the remembered numbers, are the
beginning of the list of numbers ordered by last use. -/
theorem C12_lru_order (ops : List Op) (c : Cache) (outs : List (Option Frame))
    (h : run Cache.new ops = .ok (c, outs)) :
    ∃ (frames past : List Int),
      (∀ k, k ∈ frames ↔ (held c k).isSome = true) ∧
      (∀ k, k ∈ past ↔ (c.hash k).isSome = true ∧ held c k = none) ∧
      (frames ++ past) <+: Spec.recency (ops.zip outs) := by
  obtain ⟨fs, hs, h1, h2, -⟩ := C11_limits ops c outs h
  obtain ⟨fs', hs', inv, -, rec, -⟩ := run_inv _ _ _ _ inv_new c outs h
  have r := inv.rep
  refine ⟨fs'.map (·.1), hs', ?_, ?_, rec [] (by simp)⟩
  · intro k
    constructor
    · intro hm
      obtain ⟨a, g, b, rfl⟩ := mem_split hm
      simp [held, r.at]
    · intro hh
      by_cases m1 : k ∈ fs'.map (·.1)
      · exact m1
      · by_cases m2 : k ∈ hs'
        · obtain ⟨a, b, rfl⟩ := List.append_of_mem m2
          simp [held, r.atHist] at hh
        · simp [held, r.none m1 m2] at hh
  · intro k
    constructor
    · intro hm
      obtain ⟨a, b, rfl⟩ := List.append_of_mem hm
      simp [held, r.atHist]
    · rintro ⟨g1, g2⟩
      by_cases m1 : k ∈ fs'.map (·.1)
      · obtain ⟨a, g, b, rfl⟩ := mem_split m1
        simp [held, r.at] at g2
      · by_cases m2 : k ∈ hs'
        · exact m2
        · simp [r.none m1 m2] at g1

example : (match run Cache.new [.setMaxFrames 2, .insert 1 ⟨1, 1⟩, .insert 2 ⟨2, 1⟩, .lookup 1,
      .insert 3 ⟨3, 1⟩] with
    | .ok (c, _) => [held c 1, held c 2, held c 3]
    | _ => []) = [some ⟨1, 1⟩, none, some ⟨3, 1⟩] := by decide +kernel

/-- **C12.** With room for `m` frames every history of stores and lookups gets exactly the answers
of the ideal cache, which finds a number precisely if it is among the `m` most recently used. -/
theorem C12_lru_exact (m : Nat) (ops : List Op) (h : ∀ op ∈ ops, Spec.plain op = true) :
    ∃ c, run Cache.new (.setUserMaxFrames m :: ops) = .ok (c, none :: Spec.ideal m [] ops) := by
  have i0 : Inv { Cache.new with userSize := (m : Int) } [] [] :=
    ⟨rep_new.congr rfl rfl rfl rfl rfl rfl rfl, by simp, by simp [Cache.new], by simp [Cache.new]⟩
  obtain ⟨c2, hs', e, i', t, s⟩ := setMaxFrames_inv (m := m) i0 (by omega)
  have s2 := s.maxSize
  simp only at s2
  obtain ⟨c3, e3, -⟩ := run_ideal ops c2 _ _ [] h i' (by simp [Spec.recency])
    (by simp [Spec.recency]) (by intro k f hm; simp at hm)
  refine ⟨c3, ?_⟩
  rw [s2, Int.toNat_natCast] at e3
  simp only [run, step, setUserMaxFrames, e, Res.bind_ok, e3]

example : Spec.ideal 2 [] [.insert 1 ⟨1, 1⟩, .insert 2 ⟨2, 1⟩, .lookup 1, .insert 3 ⟨3, 1⟩, .lookup 2, .lookup 1] =
    [none, none, some ⟨1, 1⟩, none, none, some ⟨1, 1⟩] := by decide

end VS.Cache
