import Verif.Reorder.LemmasWeave
import Verif.Reorder.PropsEdit

/-!
# C29, C30: Interleave and SelectEvery
-/

namespace VS.Reorder

variable {α : Type}

theorem matches_iff (first : VideoInfo) (rest : List VideoInfo) :
    (findCommonVi first rest).matches = true ↔ Spec.SameKind first rest := by
  obtain ⟨h1, h2, h3, -⟩ := findCommonVi_inv first rest
  generalize (findCommonVi first rest) = c at *
  unfold Spec.SameKind CommonVi.matches
  by_cases d : ∀ v ∈ rest, v.width = first.width ∧ v.height = first.height
  · rw [if_pos d] at h1
    by_cases f : ∀ v ∈ rest, v.fmt = first.fmt
    · rw [if_pos f] at h2
      by_cases p : ∀ v ∈ rest, v.fpsNum = first.fpsNum ∧ v.fpsDen = first.fpsDen
      · rw [if_pos p] at h3
        simp only [h1.1, h2.1, h3.1, Bool.not_false, Bool.and_self, true_iff]
        intro v hv
        exact ⟨(d v hv).1, (d v hv).2, f v hv, (p v hv).1, (p v hv).2⟩
      · rw [if_neg p] at h3
        simp only [h3.1, Bool.not_true, Bool.and_false, Bool.false_eq_true, false_iff]
        exact fun h => p (fun v hv => ⟨(h v hv).2.2.2.1, (h v hv).2.2.2.2⟩)
    · rw [if_neg f] at h2
      simp only [h2.1, Bool.not_true, Bool.and_false, Bool.false_and, Bool.false_eq_true, false_iff]
      exact fun h => f (fun v hv => (h v hv).2.2.1)
  · rw [if_neg d] at h1
    simp only [h1.1, Bool.not_true, Bool.false_and, Bool.false_eq_true, false_iff]
    exact fun h => d (fun v hv => ⟨(h v hv).1, (h v hv).2.1⟩)

theorem common_same {first : VideoInfo} {rest : List VideoInfo} (h : Spec.SameKind first rest) :
    (findCommonVi first rest).vi = { first with numFrames := (findCommonVi first rest).vi.numFrames } := by
  obtain ⟨h1, h2, h3, -⟩ := findCommonVi_inv first rest
  rw [if_pos (fun v hv => ⟨(h v hv).1, (h v hv).2.1⟩)] at h1
  rw [if_pos (fun v hv => (h v hv).2.2.1)] at h2
  rw [if_pos (fun v hv => ⟨(h v hv).2.2.2.1, (h v hv).2.2.2.2⟩)] at h3
  generalize (findCommonVi first rest).vi = w at *
  cases w
  simp only at h1 h2 h3
  simp only [h1.2, h2.2, h3.2]

theorem common_frames (c0 : Clip (VFrame α)) (rest : List (Clip (VFrame α))) (hv : ∀ c ∈ c0 :: rest, c.Valid) :
    (findCommonVi c0.vi (rest.map (·.vi))).vi.numFrames =
      ((((c0 :: rest).map (·.frames.length)).foldl max 0 : Nat) : Int) := by
  rw [(findCommonVi_inv c0.vi (rest.map (·.vi))).frames]
  have h0 := (hv c0 (by simp)).count
  have hrest : ∀ c ∈ rest, c.Valid := fun c hc => hv c (by simp [hc])
  simp only [List.map_cons, List.foldl_cons, Nat.zero_max]
  rw [h0]
  clear hv h0
  generalize c0.frames.length = a
  induction rest generalizing a with
  | nil => rfl
  | cons c cs ih =>
    have hc := (hrest c (by simp)).count
    simp only [List.map_cons, List.foldl_cons]
    rw [hc, ← ih (fun c hc => hrest c (by simp [hc]))]
    congr 1; omega

/-- The declared length of the woven clip. -/
def Spec.interleaveLength (extend : Bool) (counts : List Nat) : Nat :=
  if extend then Spec.extendedLength counts else Spec.wovenLength counts

/-! ## C29 -/

/-- C29, the frame function: position `k*m+i` shows frame `k` of clip `i`, or its last frame. -/
theorem interleave_run (clips : List (Clip (VFrame α))) (hv : ∀ c ∈ clips, c.Valid) (vi : VideoInfo)
    (modify : Bool) (k i : Nat) (c : Clip (VFrame α)) (hi : clips[i]? = some c)
    (hdur : modify = true → ∀ f ∈ c.frames, DurFits f 1 clips.length) :
    ∃ f, c.frames[min k (c.frames.length - 1)]? = some f ∧
      (interleaveFilter vi clips.length modify).run clips ((k * clips.length + i : Nat) : Int)
        = .ok (if modify then Spec.retimed (((1 : Int) : Rat) / ((clips.length : Int) : Rat)) f else f) := by
  have him : i < clips.length := by
    rcases Nat.lt_or_ge i clips.length with h | h
    · exact h
    · rw [List.getElem?_eq_none h] at hi; cases hi
  have hmod : (((k * clips.length + i : Nat) : Int).tmod (clips.length : Int)).toNat = i := by
    show ((k * clips.length + i) % clips.length) = i
    rw [Nat.mul_comm, Nat.mul_add_mod, Nat.mod_eq_of_lt him]
  have hdiv : ((k * clips.length + i : Nat) : Int).tdiv (clips.length : Int) = (k : Int) := by
    show (((k * clips.length + i) / clips.length : Nat) : Int) = k
    rw [Nat.mul_comm, Nat.mul_add_div (by omega), Nat.div_eq_of_lt him]; simp
  have hvc := hv c (List.mem_of_getElem? hi)
  obtain ⟨f, fetch, h1, h2, h3⟩ := run_single (interleaveFilter vi clips.length modify) (c := c)
    (clips := clips) (i := i) (k := (k : Int)) (n := ((k * clips.length + i : Nat) : Int)) (st := (0, 0))
    (by simp only [interleaveFilter, hmod, hdiv]) hi hvc (by omega)
  have e : (min (k : Int) ((c.frames.length : Int) - 1)).toNat = min k (c.frames.length - 1) := by
    have := hvc.len_pos; omega
  rw [e] at h1
  refine ⟨f, h1, ?_⟩
  rw [h3]
  simp only [interleaveFilter, hmod, hdiv, h2]
  cases modify with
  | false => rfl
  | true =>
    simp only [if_true]
    exact retime_spec f 1 clips.length (by omega) (hdur rfl f (List.mem_of_getElem? h1))

/-- C29. `Interleave` of at least two clips that fit together (or with `mismatch`) weaves them: position
`k*m+i` of the output is frame `k` of clip `i` (its last frame if it is shorter), its duration divided by
`m` unless `modify_duration` is off, and the length is the documented one. -/
theorem C29_interleave (c0 c1 : Clip (VFrame α)) (rest : List (Clip (VFrame α)))
    (hv : ∀ c ∈ c0 :: c1 :: rest, c.Valid) (extend mismatch modifyDuration : Option Int)
    (hm : flag mismatch = true ∨ Spec.SameKind c0.vi ((c1 :: rest).map (·.vi)))
    (hnum : ((c0 :: c1 :: rest).length : Int) ≤ INT_MAX)
    (hfit : (Spec.interleaveLength (flag extend) ((c0 :: c1 :: rest).map (·.frames.length)) : Int) ≤ INT_MAX)
    (hdur : flagT modifyDuration = true → ∀ c ∈ c0 :: c1 :: rest, ∀ f ∈ c.frames,
      DurFits f 1 ((c0 :: c1 :: rest).length))
    (hrate : flagT modifyDuration = true → Fits (c0.vi.fpsNum * (c0 :: c1 :: rest).length) ∧ Fits c0.vi.fpsDen) :
    let clips := c0 :: c1 :: rest
    let m := clips.length
    let L := Spec.interleaveLength (flag extend) (clips.map (·.frames.length))
    ∃ c out, interleaveCreate clips extend mismatch modifyDuration = .ok c ∧
      c.Outputs clips out ∧ out.length = L ∧
      (∀ (k i : Nat) (ci : Clip (VFrame α)), clips[i]? = some ci → k * m + i < L →
        out[k * m + i]? = (ci.frames[min k (ci.frames.length - 1)]?).map
          (if flagT modifyDuration then Spec.retimed (((1 : Int) : Rat) / ((m : Int) : Rat)) else id)) ∧
      (Spec.SameKind c0.vi ((c1 :: rest).map (·.vi)) →
        let rate := if flagT modifyDuration then
          Spec.scaledRate c0.vi.fpsNum c0.vi.fpsDen (((m : Int) : Rat) / ((1 : Int) : Rat))
          else (c0.vi.fpsNum, c0.vi.fpsDen)
        c.info clips = some { c0.vi with numFrames := (L : Int), fpsNum := rate.1, fpsDen := rate.2 }) := by
  intro clips m L
  have hm2 : 2 ≤ m := by simp [m, clips]
  have hfit' : (L : Int) ≤ INT_MAX := hfit
  have hnum' : (m : Int) ≤ INT_MAX := hnum
  have hpos : ∀ c ∈ clips.map (·.frames.length), 1 ≤ c := by
    intro n hn
    obtain ⟨c, hc, rfl⟩ := List.mem_map.1 hn
    exact (hv c hc).len_pos
  have hcounts : clips.map (fun c => c.vi.numFrames) = (clips.map (·.frames.length)).map fun c : Nat => (c : Int) := by
    rw [List.map_map]
    exact List.map_congr_left (fun c hc => (hv c hc).count)
  -- frame count
  have hlen : interleaveFrames (flag extend) (findCommonVi c0.vi ((c1 :: rest).map (·.vi))).vi.numFrames
      (clips.map (fun c => c.vi.numFrames)) = .ok ((L : Int), false) := by
    unfold interleaveFrames
    rw [common_frames c0 (c1 :: rest) hv]
    simp only [hcounts, List.length_map]
    cases he : flag extend with
    | true =>
      have hL : (L : Int) = ((clips.map (·.frames.length)).foldl max 0 : Nat) * (m : Int) := by
        simp only [L, Spec.interleaveLength, he, if_true, Spec.extendedLength, List.length_map, m, Int.natCast_mul]
      simp only [if_true]
      rw [i32_ok (by rw [show ((clips.length : Nat) : Int) = (m : Int) from rfl]
                     show InI32 (_ * _)
                     rw [← hL]; simp only [InI32, INT_MIN]; omega)]
      simp only [Res.bind_ok, Res.pure_eq]
      congr 1
      rw [Prod.mk.injEq]
      refine ⟨hL.symm, ?_⟩
      rw [decide_eq_false_iff_not, gt_iff_lt, Int.not_lt, Int.tdiv_eq_ediv_of_nonneg (by decide),
        Int.le_ediv_iff_mul_le (by show (0 : Int) < (m : Int); omega)]
      show _ * (m : Int) ≤ _
      rw [← hL]; exact hfit
    | false =>
      simp only [Bool.false_eq_true, if_false]
      have hL : L = wovenFrom m 0 (clips.map (·.frames.length)) 0 := by
        simp only [L, Spec.interleaveLength, he, Bool.false_eq_true, if_false, Spec.wovenLength, wovenFrom,
          List.length_map, m]
      have := (interleaveCount_spec m (by omega) (clips.map (·.frames.length)) 0 0
        (by simp only [List.length_map]; show (((0 : Nat) : Int) + (m : Int)) ≤ INT_MAX; omega) hpos).1 (by rw [← hL]; exact hfit)
      rw [← hL] at this
      simpa using this
  have hLpos : 1 ≤ L := by
    have h0 : 1 ≤ c0.frames.length := (hv c0 (by simp)).len_pos
    simp only [L, Spec.interleaveLength]
    cases flag extend with
    | true =>
      simp only [if_true, Spec.extendedLength, List.length_map]
      apply Nat.mul_pos
      · have hfold : ∀ (l : List Nat) (a : Nat), a ≤ l.foldl max a := by
          intro l
          induction l with
          | nil => intro a; exact Nat.le_refl _
          | cons x xs ih => intro a; simp only [List.foldl_cons]; have := ih (max a x); omega
        have := hfold ((c1 :: rest).map (·.frames.length)) (max 0 c0.frames.length)
        simp only [clips, List.map_cons, List.foldl_cons] at this ⊢
        omega
      · exact Nat.lt_of_lt_of_le (by decide) hm2
    | false =>
      simp only [Bool.false_eq_true, if_false, Spec.wovenLength]
      have := le_wovenFrom m 1 ((c1 :: rest).map (·.frames.length)) (max 0 ((c0.frames.length - 1) * m + 0 + 1))
      simp only [wovenFrom] at this
      simp only [clips, List.map_cons, List.zipIdx_cons, List.foldl_cons, List.length_cons, List.length_map, m] at this ⊢
      simp at this ⊢
      omega
  -- mismatch check
  have hc : (!(findCommonVi c0.vi ((c1 :: rest).map (·.vi))).matches && !flag mismatch) = false := by
    rcases hm with h | h
    · simp [h]
    · rw [(matches_iff _ _).2 h]; rfl
  have hvi0 := common_valid (rest := (c1 :: rest).map (·.vi)) (hv c0 (by simp)).info (n := (L : Int)) (by omega)
  -- the frames of the filter
  have main : ∀ vi : VideoInfo, vi.numFrames = (L : Int) →
      ∃ out, Created.Outputs (.filter (interleaveFilter vi m (flagT modifyDuration))) clips out ∧ out.length = L ∧
      (∀ (k i : Nat) (ci : Clip (VFrame α)), clips[i]? = some ci → k * m + i < L →
        out[k * m + i]? = (ci.frames[min k (ci.frames.length - 1)]?).map
          (if flagT modifyDuration then Spec.retimed (((1 : Int) : Rat) / ((m : Int) : Rat)) else id)) := by
    intro vi hvi
    have hval : ∀ p : Nat, ∃ f, (interleaveFilter vi m (flagT modifyDuration)).run clips (p : Int) = .ok f := by
      intro p
      have hlt : p % m < clips.length := Nat.mod_lt _ (by omega)
      obtain ⟨f, -, hf⟩ := interleave_run clips hv vi (flagT modifyDuration) (p / m) (p % m) clips[p % m]
        (List.getElem?_eq_getElem hlt) (fun hh f hf => hdur hh _ (List.getElem_mem hlt) f hf)
      rw [show p / m * clips.length + p % m = p by
          have := Nat.div_add_mod p m
          rw [Nat.mul_comm] at this; exact this] at hf
      exact ⟨_, hf⟩
    refine ⟨(List.range L).map (fun p => (hval p).choose), ⟨by simp [interleaveFilter, hvi], ?_⟩, by simp, ?_⟩
    · intro p hp
      rw [List.getElem_map, List.getElem_range]
      exact (hval p).choose_spec
    · intro k i ci hci hlt
      rw [List.getElem?_map, List.getElem?_range hlt, Option.map_some]
      obtain ⟨f, h1, hf⟩ := interleave_run clips hv vi (flagT modifyDuration) k i ci hci
        (fun hh f hf => hdur hh _ (List.mem_of_getElem? hci) f hf)
      have hch := (hval (k * m + i)).choose_spec
      have hf' : (interleaveFilter vi m (flagT modifyDuration)).run clips ((k * m + i : Nat) : Int) = _ := hf
      rw [h1, Option.map_some]
      congr 1
      have := Res.ok.inj (hf'.symm.trans hch)
      rw [← this]
      cases flagT modifyDuration <;> rfl
  unfold interleaveCreate
  simp only [clips, hc, Bool.false_eq_true, if_false]
  rw [show clips.map (fun c => c.vi.numFrames) = (c0 :: c1 :: rest).map (·.vi.numFrames) from rfl] at hlen
  rw [hlen]
  simp only [Res.bind_ok, Bool.false_eq_true, if_false]
  cases hmd : flagT modifyDuration with
  | false =>
    simp only [Bool.false_eq_true, if_false]
    rw [hmd] at main
    obtain ⟨out, h1, h2, h3⟩ := main { (findCommonVi c0.vi ((c1 :: rest).map (·.vi))).vi with numFrames := (L : Int) } rfl
    refine ⟨_, out, createVideoFilter_ok hvi0, h1, h2, h3, ?_⟩
    intro hk
    have hcs := common_same hk
    generalize (findCommonVi c0.vi ((c1 :: rest).map (·.vi))).vi = w at hcs ⊢
    cases w
    simp only [VideoInfo.mk.injEq] at hcs
    simp only [Created.info, interleaveFilter, hcs.1, hcs.2.1, hcs.2.2.1, hcs.2.2.2.1, hcs.2.2.2.2.1, if_false, Bool.false_eq_true]
  | true =>
    simp only [if_true]
    have hr := hrate hmd
    have hrv := rate_valid hvi0 (mul := (m : Int)) (div := 1) (by omega) (by decide) (by
      intro hne
      simp only at hne ⊢
      have hfps := (findCommonVi_inv c0.vi ((c1 :: rest).map (·.vi))).fps
      split at hfps
      · rw [hfps.2.1, hfps.2.2, Int.mul_one]; exact hr
      · rw [hfps.2.2] at hne; exact absurd rfl hne)
    simp only at hrv
    rw [show (((c0 :: c1 :: rest).length : Nat) : Int) = (m : Int) from rfl, hrv.1]
    simp only [Res.bind_ok]
    rw [hmd] at main
    obtain ⟨out, h1, h2, h3⟩ := main { (findCommonVi c0.vi ((c1 :: rest).map (·.vi))).vi with
      numFrames := (L : Int),
      fpsNum := (Spec.scaledRate (findCommonVi c0.vi ((c1 :: rest).map (·.vi))).vi.fpsNum
        (findCommonVi c0.vi ((c1 :: rest).map (·.vi))).vi.fpsDen (((m : Int) : Rat) / ((1 : Int) : Rat))).1,
      fpsDen := (Spec.scaledRate (findCommonVi c0.vi ((c1 :: rest).map (·.vi))).vi.fpsNum
        (findCommonVi c0.vi ((c1 :: rest).map (·.vi))).vi.fpsDen (((m : Int) : Rat) / ((1 : Int) : Rat))).2 } rfl
    refine ⟨_, out, createVideoFilter_ok hrv.2, h1, h2, h3, ?_⟩
    intro hk
    have hcs := common_same hk
    generalize (findCommonVi c0.vi ((c1 :: rest).map (·.vi))).vi = w at hcs ⊢
    cases w
    simp only [VideoInfo.mk.injEq] at hcs
    simp only [Created.info, interleaveFilter, hcs.1, hcs.2.1, hcs.2.2.1, hcs.2.2.2.1, hcs.2.2.2.2.1, if_true]

/-- C29, one clip: it is passed through. -/
theorem C29_interleave_single (c : Clip (VFrame α)) (e mm md : Option Int) :
    ∃ r, interleaveCreate [c] e mm md = .ok r ∧ r.Outputs [c] c.frames := ⟨_, rfl, c, rfl, rfl⟩

/-- C29, rejection: clips of different kinds are refused unless `mismatch` is set. -/
theorem C29_interleave_reject_mismatch (c0 c1 : Clip (VFrame α)) (rest : List (Clip (VFrame α)))
    (e mm md : Option Int) (hm : flag mm = false) (h : ¬ Spec.SameKind c0.vi ((c1 :: rest).map (·.vi))) :
    ∃ msg, interleaveCreate (c0 :: c1 :: rest) e mm md = .err msg := by
  have : (findCommonVi c0.vi ((c1 :: rest).map (·.vi))).matches = false := by
    rw [← Bool.not_eq_true, matches_iff]; exact h
  refine ⟨"Interleave: clips are mismatched", ?_⟩
  unfold interleaveCreate
  simp only [this, hm, Bool.not_false, Bool.and_self, if_true]

/-- C29, rejection: without `extend` a result longer than `INT_MAX` frames is refused. -/
theorem C29_interleave_reject_long (c0 c1 : Clip (VFrame α)) (rest : List (Clip (VFrame α)))
    (hv : ∀ c ∈ c0 :: c1 :: rest, c.Valid) (e mm md : Option Int) (he : flag e = false)
    (hnum : ((c0 :: c1 :: rest).length : Int) ≤ INT_MAX)
    (h : INT_MAX < (Spec.wovenLength ((c0 :: c1 :: rest).map (·.frames.length)) : Int)) :
    ∃ msg, interleaveCreate (c0 :: c1 :: rest) e mm md = .err msg := by
  have hcounts : (c0 :: c1 :: rest).map (fun c => c.vi.numFrames) =
      ((c0 :: c1 :: rest).map (·.frames.length)).map fun c : Nat => (c : Int) := by
    rw [List.map_map]
    exact List.map_congr_left (fun c hc => (hv c hc).count)
  have hspec := (interleaveCount_spec (c0 :: c1 :: rest).length (by simp)
    ((c0 :: c1 :: rest).map (·.frames.length)) 0 0 (by rw [List.length_map]; omega) (by
      intro n hn
      obtain ⟨c, hc, rfl⟩ := List.mem_map.1 hn
      exact (hv c hc).len_pos)).2 (by simpa [wovenFrom, Spec.wovenLength] using h) (by decide)
  obtain ⟨v, hv'⟩ := hspec
  have hlen : interleaveFrames (flag e) (findCommonVi c0.vi ((c1 :: rest).map (·.vi))).vi.numFrames
      ((c0 :: c1 :: rest).map (fun c => c.vi.numFrames)) = .ok (v, true) := by
    unfold interleaveFrames
    rw [hcounts, he]
    simp only [List.length_map, Bool.false_eq_true, if_false]
    exact hv'
  unfold interleaveCreate
  by_cases hc : (!(findCommonVi c0.vi ((c1 :: rest).map (·.vi))).matches && !flag mm) = true
  · simp only [hc, if_true]; exact ⟨_, rfl⟩
  · simp only [hc, Bool.false_eq_true, if_false]
    rw [hlen]
    simp only [Res.bind_ok, if_true]
    exact ⟨_, rfl⟩

/-- C29, finding: with `extend` set the documented rejection of a result that is too long does not
happen; the product that overflows `int` is evaluated (undefined behaviour), whatever the clips are. -/
theorem C29_interleave_extend_overflow (c0 c1 : Clip (VFrame α)) (rest : List (Clip (VFrame α)))
    (hv : ∀ c ∈ c0 :: c1 :: rest, c.Valid) (e mm md : Option Int) (he : flag e = true)
    (hm : flag mm = true ∨ Spec.SameKind c0.vi ((c1 :: rest).map (·.vi)))
    (h : INT_MAX < (Spec.extendedLength ((c0 :: c1 :: rest).map (·.frames.length)) : Int)) :
    interleaveCreate (c0 :: c1 :: rest) e mm md = .ub := by
  have hc : (!(findCommonVi c0.vi ((c1 :: rest).map (·.vi))).matches && !flag mm) = false := by
    rcases hm with h | h
    · simp [h]
    · rw [(matches_iff _ _).2 h]; rfl
  have hlen : interleaveFrames (flag e) (findCommonVi c0.vi ((c1 :: rest).map (·.vi))).vi.numFrames
      ((c0 :: c1 :: rest).map (fun c => c.vi.numFrames)) = .ub := by
    unfold interleaveFrames
    rw [common_frames c0 (c1 :: rest) hv, he]
    simp only [if_true]
    rw [i32_ub]
    · rfl
    · rw [List.length_map]
      unfold Spec.extendedLength at h
      rw [List.length_map, Int.natCast_mul] at h
      simp only [InI32]; omega
  unfold interleaveCreate
  simp only [hc, Bool.false_eq_true, if_false]
  rw [hlen]
  rfl

/-! ## C30 -/

/-- The result of `SelectEvery` with these arguments. -/
def Spec.selectResult (frames : List (VFrame α)) (cycle : Int) (offsets : List Int) (modify : Bool) :
    List (VFrame α) :=
  (Spec.selectEvery frames cycle.toNat (offsets.map Int.toNat)).map
    (if modify then Spec.retimed ((cycle : Rat) / (((offsets.length : Nat) : Int) : Rat)) else id)

/-- C30. `SelectEvery` with a cycle of at least two and offsets inside it outputs, for each cycle of the
input, the selected frames that exist in the given order; with `modify_duration` each duration is multiplied
by `cycle / number of offsets` and the frame rate divided by it. -/
theorem C30_selectEvery (clip : Clip (VFrame α)) (hv : clip.Valid) (cycle : Int) (offsets : List Int)
    (md : Option Int) (hc : 2 ≤ cycle ∧ cycle ≤ INT_MAX) (ho : ∀ o ∈ offsets, 0 ≤ o ∧ o < cycle)
    (hne : Spec.selectEvery clip.frames cycle.toNat (offsets.map Int.toNat) ≠ [])
    (hfit : ((Spec.selectEvery clip.frames cycle.toNat (offsets.map Int.toNat)).length : Int) ≤ INT_MAX)
    (hdur : flagT md = true → ∀ f ∈ clip.frames, DurFits f cycle offsets.length)
    (hrate : flagT md = true → Fits (clip.vi.fpsNum * offsets.length) ∧ Fits (clip.vi.fpsDen * cycle)) :
    ∃ c, selectEveryCreate clip cycle offsets md = .ok c ∧
      c.Outputs [clip] (Spec.selectResult clip.frames cycle offsets (flagT md)) ∧
      (let rate := if flagT md then
          Spec.scaledRate clip.vi.fpsNum clip.vi.fpsDen ((((offsets.length : Nat) : Int) : Rat) / (cycle : Rat))
          else (clip.vi.fpsNum, clip.vi.fpsDen)
       c.info [clip] = some { clip.vi with
        numFrames := ((Spec.selectResult clip.frames cycle offsets (flagT md)).length : Nat),
        fpsNum := rate.1, fpsDen := rate.2 }) := by
  obtain ⟨C, rfl⟩ : ∃ C : Nat, cycle = (C : Int) := ⟨cycle.toNat, by omega⟩
  have hcyc : int64ToIntS (C : Int) = C := sat_eq_of_lt (b := (C : Int) + 1) (by omega) (by omega) (by omega)
  have hoffs : offsets.map int64ToIntS = offsets := by
    rw [show offsets = offsets.map id by simp, List.map_map]
    apply List.map_congr_left
    intro o h
    exact sat_eq_of_lt (b := (C : Int)) (ho o h).1 (ho o h).2 (by omega)
  obtain ⟨O, rfl⟩ : ∃ O : List Nat, offsets = O.map (fun o : Nat => (o : Int)) := by
    refine ⟨offsets.map Int.toNat, ?_⟩
    rw [List.map_map]
    conv => lhs; rw [← List.map_id offsets]
    apply List.map_congr_left
    intro o h
    have := (ho o h).1
    simp; omega
  have hOO : (O.map (fun o : Nat => (o : Int))).map Int.toNat = O := by
    rw [List.map_map]; conv => rhs; rw [← List.map_id O]
    apply List.map_congr_left; intro o _; simp
  have hOlt : ∀ o ∈ O, o < C := by
    intro o h
    have := ho o (List.mem_map.2 ⟨o, h, rfl⟩)
    omega
  simp only [Spec.selectResult, Int.toNat_natCast, hOO, List.length_map] at *
  obtain ⟨hlen, hget⟩ := selectEvery_get clip.frames C O (by omega) hOlt
  have hcnt := hv.count
  have hlp := hv.len_pos
  have hany : ((O.map (fun o : Nat => (o : Int))).any (fun o => decide (o < 0) || decide (o ≥ (C : Int)))) = false := by
    rw [Bool.eq_false_iff]
    intro h
    rw [List.any_eq_true] at h
    obtain ⟨o, h1, h2⟩ := h
    have := ho o h1
    simp at h2; omega
  have hfull : clip.vi.numFrames.tdiv (C : Int) = ((clip.frames.length / C : Nat) : Int) := by
    rw [hcnt]; rfl
  have hmodc : clip.vi.numFrames.tmod (C : Int) = ((clip.frames.length % C : Nat) : Int) := by
    rw [hcnt]; rfl
  have htail : (O.map (fun o : Nat => (o : Int))).filter (fun o => decide (o < clip.vi.numFrames.tmod (C : Int))) =
      (O.filter (fun o => decide (o < clip.frames.length % C))).map (fun o : Nat => (o : Int)) := by
    rw [List.filter_map, hmodc]
    congr 1
    apply List.filter_congr
    intro o _
    simp only [Function.comp]
    apply decide_eq_decide.2; omega
  have hOpos : 0 < O.length := by
    rcases Nat.eq_zero_or_pos O.length with h | h
    · exfalso; apply hne
      have : O = [] := List.eq_nil_of_length_eq_zero h
      subst this
      simp [Spec.selectEvery]
    · exact h
  have hL0 : (Spec.selectEvery clip.frames C O).length ≠ 0 := fun h => hne (List.eq_nil_of_length_eq_zero h)
  -- instance data and its behaviour
  generalize hS : Spec.selectEvery clip.frames C O = S at *
  generalize hT : O.filter (fun o => decide (o < clip.frames.length % C)) = T at *
  have main : ∀ vi : VideoInfo, vi.numFrames = (S.length : Int) →
      Created.Outputs (.filter (selectEveryFilter vi ⟨O.map (fun o : Nat => (o : Int)), T.map (fun o : Nat => (o : Int)),
        C, ((clip.frames.length / C : Nat) : Int), flagT md⟩)) [clip]
      (S.map (if flagT md = true then Spec.retimed (((C : Int) : Rat) / (((O.length : Nat) : Int) : Rat)) else id)) := by
    intro vi hvi
    refine outputs_filter (by simp [selectEveryFilter, hvi]) ?_
    intro k hk
    rw [List.length_map] at hk
    obtain ⟨hg, hle⟩ := hget k (by omega)
    rw [List.getElem?_eq_getElem hk] at hg
    obtain ⟨o, ho1, ho2⟩ := Option.bind_eq_some_iff.1 hg.symm
    obtain ⟨hlt, hval⟩ := List.getElem?_eq_some_iff.1 ho2
    have hsrc : selectEverySrc ⟨O.map (fun o : Nat => (o : Int)), T.map (fun o : Nat => (o : Int)),
        (C : Int), ((clip.frames.length / C : Nat) : Int), flagT md⟩ (k : Int) =
        .ok ((k / O.length * C + o : Nat) : Int) := by
      unfold selectEverySrc SelectEveryData.num
      simp only [List.length_map]
      rw [if_neg (by omega)]
      have e1 : (k : Int).tdiv ((O.length : Nat) : Int) = ((k / O.length : Nat) : Int) := rfl
      have e2 : ((k : Int).tmod ((O.length : Nat) : Int)).toNat = k % O.length := rfl
      rw [e1, e2]
      have e3 : (if ((k / O.length : Nat) : Int) = ((clip.frames.length / C : Nat) : Int) then
          T.map (fun o : Nat => (o : Int)) else O.map (fun o : Nat => (o : Int)))[k % O.length]? = some (o : Int) := by
        by_cases hh : k / O.length = clip.frames.length / C
        · rw [if_pos (by rw [hh]), List.getElem?_map]
          rw [if_pos hh] at ho1
          rw [ho1]; rfl
        · rw [if_neg (by omega), List.getElem?_map]
          rw [if_neg hh] at ho1
          rw [ho1]; rfl
      rw [e3]
      have hr := hv.range
      have hb : (((k / O.length * C + o : Nat) : Int)) < INT_MAX := by omega
      simp only []
      rw [i32_ok (x := ((k / O.length : Nat) : Int) * (C : Int)) (by
        rw [← Int.natCast_mul]; simp only [InI32, INT_MIN]; omega)]
      simp only [Res.bind_ok]
      rw [i32_ok (by rw [← Int.natCast_mul]; simp only [InI32, INT_MIN]; omega)]
      congr 1
    obtain ⟨fetch, hf1, hf2⟩ := run_single_lt (selectEveryFilter vi ⟨O.map (fun o : Nat => (o : Int)),
        T.map (fun o : Nat => (o : Int)), (C : Int), ((clip.frames.length / C : Nat) : Int), flagT md⟩)
        (c := clip) (clips := [clip]) (i := 0) (n := (k : Int)) (k := k / O.length * C + o)
        (st := (((k / O.length * C + o : Nat) : Int), 0))
        (by simp only [selectEveryFilter, hsrc, Res.bind_ok, Res.pure_eq]) rfl hv hlt
    rw [hf2]
    simp only [selectEveryFilter, hf1, List.getElem_map]
    rw [hval]
    have hmemk : S[k] ∈ clip.frames := by rw [← hval]; exact List.getElem_mem _
    generalize S[k] = fr at hmemk
    by_cases hmd : flagT md = true
    · rw [if_pos hmd, if_pos hmd]
      simp only [SelectEveryData.num, List.length_map]
      exact retime_spec _ C O.length (by omega)
        (hdur hmd _ hmemk)
    · rw [if_neg hmd, if_neg hmd]; rfl
  have hnum : ((clip.frames.length / C : Nat) : Int) * ((O.length : Nat) : Int) + ((T.length : Nat) : Int)
      = (S.length : Int) := by rw [hlen]; simp
  have hvi0 := valid_withNumFrames hv.info (n := (S.length : Int)) (by omega)
  unfold selectEveryCreate
  simp only [hcyc, hoffs]
  rw [if_neg (by omega)]
  simp only [hany, Bool.false_eq_true, if_false]
  simp only [hfull, htail, SelectEveryData.num, List.length_map]
  rw [if_pos (by omega : clip.vi.numFrames ≠ 0), hnum, if_neg (by omega), if_neg (by omega)]
  cases hmd : flagT md with
  | false =>
    rw [hmd] at main
    simp only [Bool.false_eq_true, if_false]
    refine ⟨_, createVideoFilter_ok hvi0, main _ rfl, ?_⟩
    simp [Created.info, selectEveryFilter]
  | true =>
    rw [hmd] at main
    simp only [if_true]
    have hr := hrate hmd
    have hrv := rate_valid hvi0 (mul := ((O.length : Nat) : Int)) (div := (C : Int)) (by omega) (by omega) (fun _ => hr)
    simp only at hrv
    rw [hrv.1]
    simp only [Res.bind_ok]
    refine ⟨_, createVideoFilter_ok hrv.2, main _ rfl, ?_⟩
    simp [Created.info, selectEveryFilter]

/-- C30, rejection: a cycle below two, an offset outside the cycle, an empty result and a result longer than
`INT_MAX` frames are all refused with an error. -/
theorem C30_selectEvery_reject (clip : Clip (VFrame α)) (hv : clip.Valid) (cycle : Int) (offsets : List Int)
    (md : Option Int) (h : cycle < 2 ∨ (cycle ≤ INT_MAX ∧ ((∃ o ∈ offsets, o < 0 ∨ cycle ≤ o) ∨
      Spec.selectEvery clip.frames cycle.toNat (offsets.map Int.toNat) = [] ∨
      INT_MAX < ((Spec.selectEvery clip.frames cycle.toNat (offsets.map Int.toNat)).length : Int)))) :
    ∃ msg, selectEveryCreate clip cycle offsets md = .err msg := by
  unfold selectEveryCreate
  by_cases hc : int64ToIntS cycle ≤ 1
  · simp only [if_pos hc]; exact ⟨_, rfl⟩
  simp only [if_neg hc]
  have hc2 : 2 ≤ cycle := by
    apply Int.not_lt.1; intro hlt; apply hc
    unfold int64ToIntS INT_MAX INT_MIN; split
    · omega
    · split <;> omega
  have h := h.resolve_left (by omega)
  obtain ⟨hcM, h⟩ := h
  obtain ⟨C, rfl⟩ : ∃ C : Nat, cycle = (C : Int) := ⟨cycle.toNat, by omega⟩
  have hcyc : int64ToIntS (C : Int) = C := sat_eq_of_lt (b := (C : Int) + 1) (by omega) (by omega) (by omega)
  simp only [hcyc]
  by_cases hany : (offsets.map int64ToIntS).any (fun o => decide (o < 0) || decide (o ≥ (C : Int))) = true
  · rw [if_pos hany]; exact ⟨_, rfl⟩
  rw [if_neg hany]
  have ho : ∀ o ∈ offsets, 0 ≤ o ∧ o < (C : Int) := by
    intro o hmem
    apply Classical.byContradiction
    intro hbad
    apply hany
    rw [List.any_map, List.any_eq_true]
    refine ⟨o, hmem, ?_⟩
    simp only [Function.comp, Bool.or_eq_true, decide_eq_true_eq]
    unfold int64ToIntS
    simp only [INT_MAX, INT_MIN] at *
    omega
  have hoffs : offsets.map int64ToIntS = offsets := by
    rw [show offsets = offsets.map id by simp, List.map_map]
    apply List.map_congr_left
    intro o h
    exact sat_eq_of_lt (b := (C : Int)) (ho o h).1 (ho o h).2 (by omega)
  rw [hoffs]
  obtain ⟨O, rfl⟩ : ∃ O : List Nat, offsets = O.map (fun o : Nat => (o : Int)) := by
    refine ⟨offsets.map Int.toNat, ?_⟩
    rw [List.map_map]
    conv => lhs; rw [← List.map_id offsets]
    apply List.map_congr_left
    intro o h
    have := (ho o h).1
    simp; omega
  have hOO : (O.map (fun o : Nat => (o : Int))).map Int.toNat = O := by
    rw [List.map_map]; conv => rhs; rw [← List.map_id O]
    apply List.map_congr_left; intro o _; simp
  have hOlt : ∀ o ∈ O, o < C := by
    intro o h
    have := ho o (List.mem_map.2 ⟨o, h, rfl⟩)
    omega
  rw [hOO, Int.toNat_natCast] at h
  obtain ⟨hlen, -⟩ := selectEvery_get clip.frames C O (by omega) hOlt
  have hcnt := hv.count
  have hlp := hv.len_pos
  have hfull : clip.vi.numFrames.tdiv (C : Int) = ((clip.frames.length / C : Nat) : Int) := by
    rw [hcnt]; rfl
  have hmodc : clip.vi.numFrames.tmod (C : Int) = ((clip.frames.length % C : Nat) : Int) := by
    rw [hcnt]; rfl
  have htail : (O.map (fun o : Nat => (o : Int))).filter (fun o => decide (o < clip.vi.numFrames.tmod (C : Int))) =
      (O.filter (fun o => decide (o < clip.frames.length % C))).map (fun o : Nat => (o : Int)) := by
    rw [List.filter_map, hmodc]
    congr 1
    apply List.filter_congr
    intro o _
    simp only [Function.comp]
    apply decide_eq_decide.2; omega
  simp only [hfull, htail, SelectEveryData.num, List.length_map]
  have hnum : ((clip.frames.length / C : Nat) : Int) * ((O.length : Nat) : Int) +
      (((O.filter (fun o => decide (o < clip.frames.length % C))).length : Nat) : Int)
      = ((Spec.selectEvery clip.frames C O).length : Int) := by rw [hlen]; simp
  rw [if_pos (by omega : clip.vi.numFrames ≠ 0), hnum]
  by_cases hlong : clip.vi.numFrames ≠ 0 ∧ ((Spec.selectEvery clip.frames C O).length : Int) > INT_MAX
  · rw [if_pos hlong]; exact ⟨_, rfl⟩
  rw [if_neg hlong]
  rcases h with ⟨o, hmem, hbad⟩ | h | h
  · have := ho o hmem; omega
  · rw [h]; exact ⟨_, rfl⟩
  · exact absurd ⟨by omega, h⟩ hlong

/-! ## Interleave and SelectEvery undo each other -/

/-- Picking frame `i` of every `m` from a list whose position `k*m+i` is `k`-th of `g`, gives `g`. -/
theorem selectEvery_weave {F : Type} (out : List F) (g : List F) (m i : Nat) (hi : i < m)
    (hlen : out.length = g.length * m) (hget : ∀ k, k < g.length → out[k * m + i]? = g[k]?) :
    Spec.selectEvery out m [i] = g := by
  obtain ⟨h1, h2⟩ := selectEvery_get out m [i] (by omega) (by simpa using hi)
  have hdiv : out.length / m = g.length := by rw [hlen]; exact Nat.mul_div_cancel _ (by omega)
  have hmod : out.length % m = 0 := by rw [hlen]; exact Nat.mul_mod_left _ _
  have hf : [i].filter (fun o => decide (o < 0)) = [] := by simp
  simp only [hdiv, hmod, hf, List.length_cons, List.length_nil, Nat.zero_add, Nat.mul_one,
    Nat.add_zero, Nat.div_one, Nat.mod_one] at h1 h2
  apply List.ext_getElem? 
  intro n
  by_cases hn : n < g.length
  · rw [(h2 n hn).1, if_neg (by omega)]
    simpa using hget n hn
  · rw [List.getElem?_eq_none (by omega), List.getElem?_eq_none (by omega)]

/-- C29, round trip: interleaving clips of equal length without changing durations and then selecting
every `m`-th frame from offset `i` gives back clip `i`. -/
theorem C29_interleave_selectEvery (c0 c1 : Clip (VFrame α)) (rest : List (Clip (VFrame α))) (N : Nat)
    (hv : ∀ c ∈ c0 :: c1 :: rest, c.Valid) (hN : ∀ c ∈ c0 :: c1 :: rest, c.frames.length = N)
    (hm : Spec.SameKind c0.vi ((c1 :: rest).map (·.vi)))
    (hfit : ((N * (c0 :: c1 :: rest).length : Nat) : Int) ≤ INT_MAX) :
    let clips := c0 :: c1 :: rest
    ∃ c out, interleaveCreate clips none none (some 0) = .ok c ∧ c.Outputs clips out ∧
      ∀ (w : Clip (VFrame α)), c.info clips = some w.vi → w.frames = out → w.Valid →
        ∀ (i : Nat) (ci : Clip (VFrame α)), clips[i]? = some ci →
          ∃ d, selectEveryCreate w clips.length [(i : Int)] (some 0) = .ok d ∧ d.Outputs [w] ci.frames := by
  intro clips
  have hNpos : 1 ≤ N := by rw [← hN c0 (by simp)]; exact (hv c0 (by simp)).len_pos
  have hmpos : 2 ≤ clips.length := by simp [clips]
  have hmap : clips.map (·.frames.length) = List.replicate clips.length N := by
    rw [List.eq_replicate_iff]
    refine ⟨by simp, ?_⟩
    intro b hb
    obtain ⟨c, hc, rfl⟩ := List.mem_map.1 hb
    exact hN c hc
  have hwl : ∀ (r j n acc : Nat), j + r = n → 0 < r → acc ≤ N * n →
      wovenFrom n j (List.replicate r N) acc = N * n := by
    intro r
    induction r with
    | zero => intro j n acc _ h; omega
    | succ r ih =>
      intro j n acc hj _ hacc
      rw [List.replicate_succ, wovenFrom_cons]
      have hb : (N - 1) * n + n = N * n := by
        rw [← Nat.succ_mul, Nat.succ_eq_add_one, Nat.sub_add_cancel hNpos]
      rcases Nat.eq_zero_or_pos r with h | h
      · subst h
        simp only [List.replicate_zero, wovenFrom, List.zipIdx_nil, List.map_nil, List.foldl_nil]
        omega
      · exact ih (j + 1) n _ (by omega) h (by omega)
  have hL : Spec.interleaveLength (flag none) (clips.map (·.frames.length)) = N * clips.length := by
    have := hwl clips.length 0 clips.length 0 (by omega) (by omega) (by omega)
    rw [hmap]
    simpa [Spec.interleaveLength, flag, Spec.wovenLength, wovenFrom] using this
  have hnum : ((clips.length : Nat) : Int) ≤ INT_MAX := by
    have : clips.length ≤ N * clips.length := Nat.le_mul_of_pos_left _ hNpos
    have : ((N * clips.length : Nat) : Int) ≤ INT_MAX := hfit
    omega
  obtain ⟨c, out, h1, h2, h3, h4, h5⟩ := C29_interleave c0 c1 rest hv none none (some 0) (Or.inr hm) hnum
    (by rw [hL]; exact hfit) (by intro h; simp [flagT] at h) (by intro h; simp [flagT] at h)
  refine ⟨c, out, h1, h2, ?_⟩
  intro w _ hwf hwv i ci hci
  have hi : i < clips.length := by
    rcases Nat.lt_or_ge i clips.length with h | h
    · exact h
    · rw [List.getElem?_eq_none h] at hci; cases hci
  have hcl := hN ci (List.mem_of_getElem? hci)
  have hsel : Spec.selectEvery out clips.length [i] = ci.frames := by
    apply selectEvery_weave out ci.frames clips.length i hi
    · rw [h3, hcl]; exact hL
    · intro k hk
      have hlt : k * clips.length + i < N * clips.length := by
        rw [hcl] at hk
        have : (k + 1) * clips.length ≤ N * clips.length := Nat.mul_le_mul_right _ hk
        rw [Nat.succ_mul] at this
        omega
      have := h4 k i ci hci (by rw [hL]; exact hlt)
      rw [show min k (ci.frames.length - 1) = k by omega] at this
      rw [this]
      simp [flagT]
  obtain ⟨d, hd1, hd2, -⟩ := C30_selectEvery w hwv clips.length [(i : Int)] (some 0) (by omega)
    (by intro o ho; simp at ho; omega)
    (by
      simp only [List.map_cons, List.map_nil, Int.toNat_natCast, hwf]
      rw [hsel]
      intro h
      have := (hv ci (List.mem_of_getElem? hci)).len_pos
      rw [h] at this; simp at this)
    (by
      simp only [List.map_cons, List.map_nil, Int.toNat_natCast, hwf]
      rw [hsel]
      have := (hv ci (List.mem_of_getElem? hci)).range
      have := (hv ci (List.mem_of_getElem? hci)).count
      omega)
    (by intro h; simp [flagT] at h) (by intro h; simp [flagT] at h)
  refine ⟨d, hd1, ?_⟩
  simp only [Spec.selectResult, List.map_cons, List.map_nil, Int.toNat_natCast, hwf] at hd2
  rw [hsel] at hd2
  simpa [flagT] using hd2

/-! ## Concrete cases -/

/-- Two clips of lengths 3 and 2: the theorem's hypotheses hold and the woven length is 5. -/
example : ∃ c out, interleaveCreate [demo 3, demo 2] none none (some 0) = .ok c ∧
    c.Outputs [demo 3, demo 2] out ∧ out.length = 5 := by
  obtain ⟨c, out, h1, h2, h3, -⟩ := C29_interleave (demo 3) (demo 2) [] (by
      intro c hc; simp at hc; rcases hc with rfl | rfl <;> exact demo_valid _ (by decide) (by decide))
    none none (some 0) (Or.inr (by intro v hv; simp at hv; subst hv; exact ⟨rfl, rfl, rfl, rfl, rfl⟩))
    (by decide) (by decide) (by intro h; simp [flagT] at h) (by intro h; simp [flagT] at h)
  exact ⟨c, out, h1, h2, by rw [h3]; decide⟩

/-- A 5-frame clip, cycle 3, offsets 2 and 0: frames 2 0 3. -/
example : ∃ c, selectEveryCreate (demo 5) 3 [2, 0] (some 0) = .ok c ∧
    c.Outputs [demo 5] (Spec.selectResult (demo 5).frames 3 [2, 0] false) := by
  obtain ⟨c, h1, h2, -⟩ := C30_selectEvery (demo 5) (demo_valid _ (by decide) (by decide)) 3 [2, 0] (some 0)
    (by decide) (by decide) (by decide) (by decide) (by intro h; simp [flagT] at h) (by intro h; simp [flagT] at h)
  exact ⟨c, h1, h2⟩

example : (Spec.selectEvery [10, 11, 12, 13, 14] 3 [2, 0]) = [12, 10, 13] := by decide

end VS.Reorder
