import Verif.Reorder.LemmasMulti
import Verif.Reorder.PropsBasic

/-!
# C31, C32: Splice, DuplicateFrames, DeleteFrames, FreezeFrames
-/

namespace VS.Reorder

variable {α : Type}

/-! ## C31 -/

theorem common_valid {first : VideoInfo} {rest : List VideoInfo} (hv : isValidVideoInfo first = true)
    {n : Int} (hn : 1 ≤ n) :
    isValidVideoInfo { (findCommonVi first rest).vi with numFrames := n } = true := by
  have h := findCommonVi_inv first rest
  obtain ⟨h1, h2, h3, -⟩ := h
  have hv' := valid_withNumFrames hv hn
  generalize (findCommonVi first rest) = c at *
  unfold isValidVideoInfo at hv' ⊢
  by_cases hneg : first.fpsDen < 0 ∨ first.fpsNum < 0 ∨ first.height < 0 ∨ first.width < 0 ∨ n < 1
  · rw [if_pos (by simpa using hneg)] at hv'; simp at hv'
  rw [if_neg (by simpa using hneg)] at hv'
  have hdims : 0 ≤ c.vi.width ∧ 0 ≤ c.vi.height ∧
      ((decide (c.vi.height ≠ 0) ^^ decide (c.vi.width ≠ 0)) = true →
        (decide (first.height ≠ 0) ^^ decide (first.width ≠ 0)) = true) := by
    split at h1
    · rw [h1.2.1, h1.2.2]; exact ⟨by omega, by omega, id⟩
    · rw [h1.2.1, h1.2.2]; simp
  have hfps : 0 ≤ c.vi.fpsNum ∧ 0 ≤ c.vi.fpsDen ∧
      (reduceRational c.vi.fpsNum c.vi.fpsDen ≠ .ok (c.vi.fpsNum, c.vi.fpsDen) →
        reduceRational first.fpsNum first.fpsDen ≠ .ok (first.fpsNum, first.fpsDen)) := by
    split at h3
    · rw [h3.2.1, h3.2.2]; exact ⟨by omega, by omega, id⟩
    · rw [h3.2.1, h3.2.2]; refine ⟨by omega, by omega, ?_⟩
      intro hh; exact absurd (by simp [reduceRational, muldivRational]) hh
  rw [if_neg (by simp only; omega)]
  split
  · rename_i hh
    rw [if_pos (hfps.2.2 hh)] at hv'; simp at hv'
  · split
    · rename_i hh
      split at hv'
      · simp at hv'
      · rw [if_pos (hdims.2.2 hh)] at hv'; simp at hv'
    · rfl

theorem splice_compat_iff (first : VideoInfo) (rest : List VideoInfo) :
    ((findCommonVi first rest).matches || isSameVideoInfo (findCommonVi first rest).vi first) = true ↔
      Spec.SpliceCompatible first rest := by
  have h := findCommonVi_inv first rest
  obtain ⟨h1, h2, h3, -⟩ := h
  generalize (findCommonVi first rest) = c at *
  unfold Spec.SpliceCompatible CommonVi.matches isSameVideoInfo
  by_cases d : ∀ v ∈ rest, v.width = first.width ∧ v.height = first.height <;>
    by_cases f : ∀ v ∈ rest, v.fmt = first.fmt
  · rw [if_pos d] at h1; rw [if_pos f] at h2
    rw [eq_true d, eq_true f, h1.2.1, h1.2.2, h2.2]
    simp
  · rw [if_pos d] at h1; rw [if_neg f] at h2
    rw [eq_true d, eq_false f, h1.2.1, h1.2.2, h2.1, h2.2]
    simp; omega
  · rw [if_neg d] at h1; rw [if_pos f] at h2
    rw [eq_false d, eq_true f, h1.1, h1.2.1, h1.2.2, h2.2]
    simp; omega
  · rw [if_neg d] at h1; rw [if_neg f] at h2
    rw [eq_false d, eq_false f, h1.1, h1.2.1, h1.2.2, h2.2]
    simp; omega

theorem map_counts {F : Type} (clips : List (Clip F)) (hv : ∀ c ∈ clips, c.Valid) :
    clips.map (fun c => c.vi.numFrames) = (clips.map (·.frames)).map fun c => (c.length : Int) := by
  rw [List.map_map]
  apply List.map_congr_left
  intro c hc
  exact (hv c hc).count

theorem sum_counts {F : Type} (l : List (List F)) :
    (l.map fun c => (c.length : Int)).sum = ((l.flatten.length : Nat) : Int) := by
  induction l with
  | nil => rfl
  | cons c cs ih => simp [ih]

/-- C31. `Splice` of clips that fit together outputs their concatenation, as long as the total length
is representable. -/
theorem C31_splice (c0 : Clip (VFrame α)) (rest : List (Clip (VFrame α)))
    (hv : ∀ c ∈ c0 :: rest, c.Valid) (mismatch : Option Int)
    (hm : flag mismatch = true ∨ Spec.SpliceCompatible c0.vi (rest.map (·.vi)))
    (hfit : ((((c0 :: rest).map (·.frames)).flatten.length : Nat) : Int) ≤ INT_MAX) :
    ∃ c, spliceCreate (c0 :: rest) mismatch = .ok c ∧
      c.Outputs (c0 :: rest) ((c0 :: rest).map (·.frames)).flatten := by
  cases rest with
  | nil => exact ⟨_, rfl, c0, rfl, by simp⟩
  | cons c1 rest =>
    have hc : (!(findCommonVi c0.vi ((c1 :: rest).map (·.vi))).matches && !flag mismatch &&
        !isSameVideoInfo (findCommonVi c0.vi ((c1 :: rest).map (·.vi))).vi c0.vi) = false := by
      rcases hm with h | h
      · simp [h]
      · have := (splice_compat_iff _ _).2 h
        revert this
        cases (findCommonVi c0.vi ((c1 :: rest).map (·.vi))).matches <;> simp
        intro h; simp [h]
    have hcounts := map_counts _ hv
    have hnn : ∀ c ∈ (c0 :: c1 :: rest).map (fun c => c.vi.numFrames), 0 ≤ c := by
      rw [hcounts]; simp
    have hsum : ((c0 :: c1 :: rest).map (fun c => c.vi.numFrames)).sum
        = ((((c0 :: c1 :: rest).map (·.frames)).flatten.length : Nat) : Int) := by
      rw [hcounts, sum_counts]
    have hcnt := (spliceCount_spec _ 0 hnn (by omega)).1 (by rw [hsum]; omega)
    rw [hsum, Int.zero_add] at hcnt
    have hlen0 := (hv c0 (by simp)).len_pos
    refine ⟨.filter (spliceFilter { (findCommonVi c0.vi ((c1 :: rest).map (·.vi))).vi with
            numFrames := ((((c0 :: c1 :: rest).map (·.frames)).flatten.length : Nat) : Int) }
          ((c0 :: c1 :: rest).map (fun c => c.vi.numFrames))), ?_, outputs_filter ?_ ?_⟩
    · unfold spliceCreate
      simp only [hc, Bool.false_eq_true, if_false, hcnt]
      apply createVideoFilter_ok
      apply common_valid (hv c0 (by simp)).info
      simp only [List.map_cons, List.flatten_cons, List.length_append]
      omega
    · rfl
    · intro k hk
      obtain ⟨j, m, c, h1, h2, h3, h4⟩ := spliceFind_spec ((c0 :: c1 :: rest).map (·.frames)) 0 0 k
        (by intro c hc; obtain ⟨d, hd, rfl⟩ := List.mem_map.1 hc; exact (hv d hd).len_pos)
        (by omega) (by omega) (by omega)
      rw [List.getElem?_map, Option.map_eq_some_iff] at h2
      obtain ⟨d, hd, rfl⟩ := h2
      rw [Nat.sub_zero, List.getElem?_eq_getElem hk, List.getElem?_eq_getElem h3, Option.some.injEq] at h4
      rw [← hcounts, Nat.zero_add] at h1
      obtain ⟨fetch, a, b⟩ := run_single_lt (c := d) (clips := c0 :: c1 :: rest) (i := j) (k := m)
        (st := ((j : Int), (m : Int))) (n := (k : Int))
        (spliceFilter { (findCommonVi c0.vi ((c1 :: rest).map (·.vi))).vi with
            numFrames := ((((c0 :: c1 :: rest).map (·.frames)).flatten.length : Nat) : Int) }
          ((c0 :: c1 :: rest).map (fun c => c.vi.numFrames)))
        (by simp only [spliceFilter]
            have h1' := h1
            simp only [Int.natCast_zero] at h1'
            rw [h1']; rfl) hd
        (hv d (List.mem_of_getElem? hd)) h3
      rw [b]
      simp only [spliceFilter, Int.toNat_natCast, a, retFrame_some, h4]

/-- C31. Otherwise `Splice` reports an error: too long, or clips that do not fit together. -/
theorem C31_splice_reject (c0 c1 : Clip (VFrame α)) (rest : List (Clip (VFrame α)))
    (hv : ∀ c ∈ c0 :: c1 :: rest, c.Valid) (mismatch : Option Int)
    (h : (flag mismatch = false ∧ ¬ Spec.SpliceCompatible c0.vi ((c1 :: rest).map (·.vi))) ∨
      INT_MAX < ((((c0 :: c1 :: rest).map (·.frames)).flatten.length : Nat) : Int)) :
    ∃ msg, spliceCreate (c0 :: c1 :: rest) mismatch = .err msg := by
  unfold spliceCreate
  simp only
  split
  · exact ⟨_, rfl⟩
  · rename_i hc
    rcases h with ⟨h1, h2⟩ | h
    · exfalso
      apply h2
      rw [← splice_compat_iff]
      rw [h1] at hc
      revert hc
      cases (findCommonVi c0.vi ((c1 :: rest).map (·.vi))).matches <;>
        cases isSameVideoInfo (findCommonVi c0.vi ((c1 :: rest).map (·.vi))).vi c0.vi <;> simp
    · have hcounts := map_counts _ hv
      have hnn : ∀ c ∈ (c0 :: c1 :: rest).map (fun c => c.vi.numFrames), 0 ≤ c := by
        rw [hcounts]; simp
      have hsum : ((c0 :: c1 :: rest).map (fun c => c.vi.numFrames)).sum
          = ((((c0 :: c1 :: rest).map (·.frames)).flatten.length : Nat) : Int) := by
        rw [hcounts, sum_counts]
      have := (spliceCount_spec _ 0 hnn (by omega)).2 (by rw [hsum]; omega) (by decide)
      rw [this]
      exact ⟨_, rfl⟩

example : Spec.SpliceCompatible (demo 2).vi [(demo 3).vi] ∧
    (([demo 2, demo 3].map (·.frames)).flatten).map (·.pix) = [0, 1, 0, 1, 2] := by
  refine ⟨⟨Or.inr ?_, Or.inr ?_⟩, by decide⟩ <;> simp [demo]

/-- Clips of different width do not fit together. -/
example : ¬ Spec.SpliceCompatible (demo 2).vi [{ (demo 3).vi with width := 320 }] := by
  simp [Spec.SpliceCompatible, demo]

/-! ## C32 -/

theorem sortInts_perm (l : List Int) : (sortInts l).Perm l := List.mergeSort_perm _ _

theorem sortInts_sorted (l : List Int) : (sortInts l).Pairwise (· ≤ ·) := by
  have := List.pairwise_mergeSort (le := fun a b : Int => decide (a ≤ b))
    (by intro a b c; simp; omega) (by intro a b; simp; omega) l
  exact this.imp (by simp)

theorem sat_id_list {n : Int} (hn : n ≤ INT_MAX) (l : List Int) (h : ∀ x ∈ l, 0 ≤ x ∧ x < n) :
    l.map int64ToIntS = l := by
  conv => rhs; rw [← List.map_id l]
  apply List.map_congr_left
  intro x hx
  have := h x hx
  exact sat_eq_of_lt this.1 this.2 (by omega)

/-- C32. `DuplicateFrames` repeats each frame as often as it is listed, right after itself. -/
theorem C32_duplicate (clip : Clip (VFrame α)) (hv : clip.Valid) (dups : List Int)
    (hb : ∀ d ∈ dups, 0 ≤ d ∧ d < clip.frames.length)
    (hfit : (clip.frames.length : Int) + dups.length ≤ INT_MAX) :
    ∃ c, duplicateCreate clip dups = .ok c ∧ c.Outputs [clip] (Spec.duplicate clip.frames dups) := by
  have hcnt := hv.count
  have hr := hv.range
  have hp := hv.pos
  have hsat := sat_id_list hr dups (by rw [hcnt]; exact hb)
  have hany : (dups.any fun d => decide (d < 0) ||
      (decide (clip.vi.numFrames ≠ 0) && decide (d > clip.vi.numFrames - 1))) = false := by
    rw [List.any_eq_false]
    intro d hd
    have := hb d hd
    simp; omega
  have hperm := sortInts_perm dups
  have hspec : Spec.duplicate clip.frames dups = Spec.duplicate clip.frames (sortInts dups) := by
    unfold Spec.duplicate
    congr 1; funext p
    rw [hperm.count_eq]
  have hb' : ∀ d ∈ sortInts dups, 0 ≤ d ∧ d < clip.frames.length := fun d hd => hb d (hperm.mem_iff.1 hd)
  unfold duplicateCreate
  simp only [hsat, hany, Bool.false_eq_true, if_false, hperm.length_eq]
  rw [if_neg (by omega)]
  refine ⟨_, createVideoFilter_ok ?_, ?_⟩
  · exact valid_withNumFrames hv.info (by omega)
  rw [hspec]
  apply outputs_filter
  · rw [dup_length _ _ hb', hperm.length_eq]
    simp [duplicateFilter, hcnt]
  · intro k hk
    rw [dup_length _ _ hb'] at hk
    obtain ⟨m, h1, h2, h3⟩ := dupSrc_spec _ clip.frames (sortInts_sorted dups) hb' k hk
    rw [List.getElem?_eq_getElem (by rw [dup_length _ _ hb']; exact hk), List.getElem?_eq_getElem h2,
      Option.some.injEq] at h3
    obtain ⟨fetch, a, b⟩ := run_single_lt (c := clip) (clips := [clip]) (i := 0) (k := m)
      (st := ((m : Int), 0)) (n := (k : Int))
      (duplicateFilter { clip.vi with numFrames := clip.vi.numFrames + dups.length } (sortInts dups))
      (by simp only [duplicateFilter, h1]) rfl hv h2
    rw [b]
    simp only [duplicateFilter, a, retFrame_some, h3]

/-- C32. Frame numbers outside the clip, or too long a result, are refused. -/
theorem C32_duplicate_reject (clip : Clip (VFrame α)) (hv : clip.Valid) (dups : List Int)
    (h : (∃ d ∈ dups, d < 0 ∨ (clip.frames.length : Int) ≤ d) ∨
      INT_MAX < (clip.frames.length : Int) + dups.length) :
    ∃ msg, duplicateCreate clip dups = .err msg := by
  have hcnt := hv.count
  have hr := hv.range
  have hp := hv.pos
  unfold duplicateCreate
  simp only
  split
  · exact ⟨_, rfl⟩
  · rename_i hany
    rcases h with ⟨d, hd, hbad⟩ | h
    · exfalso
      apply hany
      rw [List.any_eq_true]
      refine ⟨int64ToIntS d, List.mem_map.2 ⟨d, hd, rfl⟩, ?_⟩
      have h1 := sat_lt (x := d) (b := 0) (by omega) (by decide)
      have h2 := sat_lt (x := d) (b := clip.vi.numFrames) (by omega) hr
      simp
      omega
    · rw [if_pos]
      · exact ⟨_, rfl⟩
      · rw [(sortInts_perm _).length_eq, List.length_map]; omega

theorem hasAdjacentEqual_false {l : List Int} (hs : l.Pairwise (· ≤ ·)) :
    hasAdjacentEqual l = false ↔ l.Pairwise (· < ·) := by
  induction l with
  | nil => simp [hasAdjacentEqual]
  | cons a l ih =>
    cases l with
    | nil => simp [hasAdjacentEqual]
    | cons b l =>
      rw [List.pairwise_cons] at hs
      rw [List.pairwise_cons]
      simp only [hasAdjacentEqual, Bool.or_eq_false_iff, decide_eq_false_iff_not, ih hs.2]
      constructor
      · rintro ⟨h1, h2⟩
        refine ⟨?_, h2⟩
        intro c hc
        have hab := hs.1 b (by simp)
        rcases List.mem_cons.1 hc with rfl | hc
        · omega
        · have := (List.pairwise_cons.1 h2).1 c hc; omega
      · rintro ⟨h1, h2⟩
        have := h1 b (by simp)
        exact ⟨by omega, h2⟩

theorem pairwise_lt_of_nodup {l : List Int} (hs : l.Pairwise (· ≤ ·)) : l.Nodup ↔ l.Pairwise (· < ·) := by
  constructor
  · intro h
    have := hs.and h
    exact this.imp (by intro a b ⟨h1, h2⟩; omega)
  · intro h
    exact h.imp (by intro a b h; omega)

/-- C32. `DeleteFrames` removes exactly the listed frames. -/
theorem C32_delete (clip : Clip (VFrame α)) (hv : clip.Valid) (del : List Int)
    (hb : ∀ d ∈ del, 0 ≤ d ∧ d < clip.frames.length) (hnd : del.Nodup)
    (hlen : del.length < clip.frames.length) :
    ∃ c, deleteCreate clip del = .ok c ∧ c.Outputs [clip] (Spec.delete clip.frames del) := by
  have hcnt := hv.count
  have hr := hv.range
  have hp := hv.pos
  have hsat := sat_id_list hr del (by rw [hcnt]; exact hb)
  have hany : (del.any fun d => decide (d < 0) ||
      (decide (clip.vi.numFrames ≠ 0) && decide (d ≥ clip.vi.numFrames))) = false := by
    rw [List.any_eq_false]
    intro d hd
    have := hb d hd
    simp; omega
  have hperm := sortInts_perm del
  have hsorted := sortInts_sorted del
  have hnd' : (sortInts del).Nodup := hperm.nodup_iff.2 hnd
  have hspec : Spec.delete clip.frames del = Spec.delete clip.frames (sortInts del) := by
    unfold Spec.delete
    congr 2; funext p
    simp [hperm.mem_iff]
  have hb' : ∀ d ∈ sortInts del, 0 ≤ d ∧ d < clip.frames.length := fun d hd => hb d (hperm.mem_iff.1 hd)
  have hadj : hasAdjacentEqual (sortInts del) = false :=
    (hasAdjacentEqual_false hsorted).2 ((pairwise_lt_of_nodup hsorted).1 hnd')
  have hdl := del_length _ hnd' clip.frames hb'
  rw [hperm.length_eq] at hdl
  have hne : clip.vi.numFrames ≠ 0 := by omega
  unfold deleteCreate
  simp only [hsat, hany, Bool.false_eq_true, if_false, hperm.length_eq, hadj]
  simp only [if_pos hne]
  rw [if_neg (by omega)]
  refine ⟨_, createVideoFilter_ok ?_, ?_⟩
  · exact valid_withNumFrames hv.info (by omega)
  rw [hspec]
  apply outputs_filter
  · simp only [deleteFilter]; omega
  · intro k hk
    obtain ⟨m, h1, h2, h3⟩ := delSrc_spec _ clip.frames ((pairwise_lt_of_nodup hsorted).1 hnd') hb' (by omega) k
      (by rw [hperm.length_eq]; omega)
    rw [List.getElem?_eq_getElem hk, List.getElem?_eq_getElem h2, Option.some.injEq] at h3
    obtain ⟨fetch, a, b⟩ := run_single_lt (c := clip) (clips := [clip]) (i := 0) (k := m)
      (st := ((m : Int), 0)) (n := (k : Int))
      (deleteFilter { clip.vi with numFrames := clip.vi.numFrames - del.length } (sortInts del))
      (by simp only [deleteFilter, h1, Res.bind_ok, Res.pure_eq]) rfl hv h2
    rw [b]
    simp only [deleteFilter, a, retFrame_some, h3]

/-- C32. Everything else is refused: a number outside the clip, one listed twice, all frames listed. -/
theorem C32_delete_reject (clip : Clip (VFrame α)) (hv : clip.Valid) (del : List Int)
    (h : (∃ d ∈ del, d < 0 ∨ (clip.frames.length : Int) ≤ d) ∨ ¬ del.Nodup ∨
      clip.frames.length ≤ del.length) :
    ∃ msg, deleteCreate clip del = .err msg := by
  have hcnt := hv.count
  have hr := hv.range
  have hp := hv.pos
  unfold deleteCreate
  simp only
  split
  · exact ⟨_, rfl⟩
  rename_i hany
  have hb : ∀ d ∈ del, 0 ≤ d ∧ d < clip.frames.length := by
    intro d hd
    rw [List.any_eq_true] at hany
    have h1 := sat_lt (x := d) (b := 0) (by omega) (by decide)
    have h2 := sat_lt (x := d) (b := clip.vi.numFrames) (by omega) hr
    have := fun hh => hany ⟨int64ToIntS d, List.mem_map.2 ⟨d, hd, rfl⟩, hh⟩
    simp at this
    omega
  rw [sat_id_list hr del (by rw [hcnt]; exact hb)]
  have hperm := sortInts_perm del
  have hsorted := sortInts_sorted del
  split
  · exact ⟨_, rfl⟩
  rename_i hadj
  rw [Bool.not_eq_true, hasAdjacentEqual_false hsorted, ← pairwise_lt_of_nodup hsorted, hperm.nodup_iff] at hadj
  rcases h with ⟨d, hd, hbad⟩ | h | h
  · have := hb d hd; omega
  · exact absurd hadj h
  · rw [if_pos]
    · exact ⟨_, rfl⟩
    · rw [if_pos (by omega), hperm.length_eq]
      omega

example : (Spec.duplicate (demo 4).frames [2, 0, 2]).map (·.pix) = [0, 0, 1, 2, 2, 2, 3] ∧
    (Spec.delete (demo 5).frames [3, 0]).map (·.pix) = [1, 2, 4] := by decide

/-- The positions at which `DuplicateFrames` inserts its copies, for listed numbers in ascending order. -/
def Spec.copyPositions (sorted : List Int) : List Int := sorted.zipIdx.map fun p => p.1 + (p.2 : Int) + 1

/-- Deleting the inserted copies again, at the list level. -/
theorem delFrom_dupFrom {F : Type} (fs : List F) : ∀ (dups del : List Int) (i off : Nat),
    (∀ d ∈ dups, (i : Int) ≤ d) → dups.Pairwise (· ≤ ·) →
    (∀ j : Nat, i + off ≤ j → ((j : Int) ∈ del ↔ (j : Int) ∈ (dups.zipIdx off).map fun p => p.1 + (p.2 : Int) + 1)) →
    delFrom del (i + off) (dupFrom dups i fs) = fs := by
  induction fs with
  | nil => intros; simp [dupFrom, delFrom]
  | cons f fs ih =>
    intro dups del i off hge hs hdel
    rw [dupFrom_cons]
    -- split the listed numbers into those equal to `i` and the larger ones
    have hsplit : ∃ c rest, dups = List.replicate c (i : Int) ++ rest ∧ (∀ d ∈ rest, ((i + 1 : Nat) : Int) ≤ d) := by
      clear hdel ih
      induction dups with
      | nil => exact ⟨0, [], rfl, by simp⟩
      | cons d ds ih2 =>
        rw [List.pairwise_cons] at hs
        have hd := hge d (by simp)
        by_cases hdi : d = i
        · obtain ⟨c, rest, h1, h2⟩ := ih2 (fun x hx => hge x (by simp [hx])) hs.2
          exact ⟨c + 1, rest, by rw [List.replicate_succ, List.cons_append, ← h1, hdi], h2⟩
        · refine ⟨0, d :: ds, by simp, ?_⟩
          intro x hx
          rcases List.mem_cons.1 hx with rfl | hx
          · omega
          · have := hs.1 x hx; omega
    obtain ⟨c, rest, rfl, hrest⟩ := hsplit
    have hcount : (List.replicate c (i : Int) ++ rest).count (i : Int) = c := by
      rw [List.count_append, List.count_replicate_self, List.count_eq_zero.2]
      · rfl
      · intro hm; have := hrest _ hm; omega
    rw [hcount]
    have hmem : ∀ j : Nat, i + off ≤ j → ((j : Int) ∈ del ↔ (i + off + 1 ≤ j ∧ j ≤ i + off + c) ∨
        (j : Int) ∈ (rest.zipIdx (off + c)).map fun p => p.1 + (p.2 : Int) + 1) := by
      intro j hj
      rw [hdel j hj, List.zipIdx_append, List.map_append, List.mem_append, List.length_replicate]
      have : (j : Int) ∈ ((List.replicate c (i : Int)).zipIdx off).map (fun p => p.1 + (p.2 : Int) + 1) ↔
          (i + off + 1 ≤ j ∧ j ≤ i + off + c) := by
        constructor
        · intro hm
          obtain ⟨p, hp, he⟩ := List.mem_map.1 hm
          have h1 := List.mem_zipIdx hp
          have h2 := h1.2.2
          simp at h1
          simp at h2
          omega
        · rintro ⟨h1, h2⟩
          apply List.mem_map.2
          refine ⟨((i : Int), j - i - 1), ?_, by simp; omega⟩
          rw [List.mem_zipIdx_iff_le_and_getElem?_sub]
          refine ⟨by simp; omega, ?_⟩
          rw [List.getElem?_replicate, if_pos (by simp; omega)]
      rw [this]
    have hrestpos : ∀ x ∈ (rest.zipIdx (off + c)).map (fun p => p.1 + (p.2 : Int) + 1), ((i + off + c : Nat) : Int) + 1 < x := by
      intro x hx
      obtain ⟨p, hp, rfl⟩ := List.mem_map.1 hx
      have h1 := List.mem_zipIdx hp
      have h2 := hrest p.1 (List.fst_mem_of_mem_zipIdx hp)
      omega
    -- the copies are deleted one after the other
    have hcopies : ∀ (m s : Nat) (tail : List F), i + off + 1 ≤ s → s + m = i + off + c + 1 →
        delFrom del s (List.replicate m f ++ tail) = delFrom del (s + m) tail := by
      intro m
      induction m with
      | zero => intros; simp
      | succ m ihm =>
        intro s tail h1 h2
        rw [List.replicate_succ, List.cons_append, delFrom_cons, if_pos ((hmem s (by omega)).2 (Or.inl (by omega))),
          ihm (s + 1) tail (by omega) (by omega)]
        congr 1; omega
    rw [Nat.add_comm 1 c, List.replicate_succ, List.cons_append, delFrom_cons, if_neg, hcopies c _ _ (by omega) (by omega)]
    · congr 1
      have hdup : dupFrom (List.replicate c (i : Int) ++ rest) (i + 1) fs = dupFrom rest (i + 1) fs := by
        apply dupFrom_congr
        intro j hj
        rw [List.count_append, List.count_replicate, if_neg (by simp; omega), Nat.zero_add]
      rw [hdup]
      have := ih rest del (i + 1) (off + c) hrest (by rw [List.pairwise_append] at hs; exact hs.2.1) (by
        intro j hj
        rw [hmem j (by omega)]
        constructor
        · rintro (h | h)
          · omega
          · exact h
        · exact Or.inr)
      rw [← this]
      congr 1
      · omega
      · rw [this]
    · rw [hmem _ (by omega)]
      rintro (h | h)
      · omega
      · have := hrestpos _ h; omega

/-- C32. Deleting the inserted copies from the output of `DuplicateFrames` restores the clip. -/
theorem C32_delete_undoes_duplicate (frames : List (VFrame α)) (dups : List Int)
    (hb : ∀ d ∈ dups, 0 ≤ d ∧ d < frames.length) (hs : dups.Pairwise (· ≤ ·)) :
    Spec.delete (Spec.duplicate frames dups) (Spec.copyPositions dups) = frames := by
  have := delFrom_dupFrom frames dups (Spec.copyPositions dups) 0 0 (fun d hd => by have := hb d hd; omega) hs
    (fun j _ => Iff.rfl)
  exact this

example : Spec.copyPositions [0, 2, 2] = [1, 4, 5] := by decide

/-- C32, the same through the two filters: running `DeleteFrames` on the output of `DuplicateFrames`
with the positions of the copies succeeds and outputs the original clip. -/
theorem C32_delete_duplicate_roundtrip (clip : Clip (VFrame α)) (hv : clip.Valid) (dups : List Int)
    (hb : ∀ d ∈ dups, 0 ≤ d ∧ d < clip.frames.length) (hs : dups.Pairwise (· ≤ ·))
    (hfit : (clip.frames.length : Int) + dups.length ≤ INT_MAX) :
    ∃ c vi' out c', duplicateCreate clip dups = .ok c ∧ c.info [clip] = some vi' ∧ c.Outputs [clip] out ∧
      deleteCreate ⟨vi', out⟩ (Spec.copyPositions dups) = .ok c' ∧
      c'.Outputs [⟨vi', out⟩] clip.frames := by
  obtain ⟨c, h1, h2⟩ := C32_duplicate clip hv dups hb hfit
  have hlen := dup_length dups clip.frames hb
  have hcnt := hv.count
  have hinfo : ∃ vi', c.info [clip] = some vi' ∧ isValidVideoInfo vi' = true ∧
      vi'.numFrames = (Spec.duplicate clip.frames dups).length := by
    cases c with
    | passthrough i =>
      unfold duplicateCreate createVideoFilter at h1
      simp only at h1
      split at h1
      · cases h1
      · split at h1
        · cases h1
        · split at h1 <;> cases h1
    | filter f =>
      refine ⟨f.vi, rfl, ?_, h2.1⟩
      unfold duplicateCreate createVideoFilter at h1
      simp only at h1
      split at h1
      · cases h1
      · split at h1
        · cases h1
        · split at h1
          · rename_i hval; cases h1; exact hval
          · cases h1
  obtain ⟨vi', hi, hval, hnum⟩ := hinfo
  have hv' : (⟨vi', Spec.duplicate clip.frames dups⟩ : Clip (VFrame α)).Valid :=
    ⟨hval, hnum, by simp only [hnum, hlen]; omega⟩
  have hmem : ∀ x ∈ Spec.copyPositions dups, ∃ d n, (d, n) ∈ dups.zipIdx ∧ x = d + (n : Int) + 1 := by
    intro x hx
    obtain ⟨p, hp, rfl⟩ := List.mem_map.1 hx
    exact ⟨p.1, p.2, hp, rfl⟩
  obtain ⟨c', h3, h4⟩ := C32_delete _ hv' (Spec.copyPositions dups)
    (by
      intro x hx
      obtain ⟨d, n, hp, rfl⟩ := hmem x hx
      have h5 := hb d (List.fst_mem_of_mem_zipIdx hp)
      have h6 := (List.mem_zipIdx hp).2.1
      simp only [hlen]
      omega)
    (by
      unfold Spec.copyPositions
      rw [pairwise_lt_of_nodup]
      all_goals
        rw [List.pairwise_iff_getElem] at hs ⊢
        intro i j hi hj hij
        simp at hi hj
        have := hs i j (by omega) (by omega) hij
        simp
        omega)
    (by simp only [hlen, Spec.copyPositions, List.length_map, List.length_zipIdx]
        have := hv.len_pos; omega)
  rw [C32_delete_undoes_duplicate clip.frames dups hb hs] at h4
  exact ⟨c, vi', _, c', h1, hi, h2, h3, h4⟩

/-! ### FreezeFrames -/

/-- The model's sorted triple against the specification's range. -/
def Freeze.ofRange (r : Spec.Range) : Freeze := ⟨min r.a r.b, max r.a r.b, r.repl⟩

theorem zipFreeze_eq (n : Int) (hn : n ≤ INT_MAX) : ∀ (a b c : List Int),
    (∀ r ∈ Spec.ranges a b c, 0 ≤ min r.a r.b ∧ max r.a r.b < n ∧ 0 ≤ r.repl ∧ r.repl < n) →
    zipFreeze a b c = (Spec.ranges a b c).map Freeze.ofRange := by
  intro a
  induction a with
  | nil => intros; rfl
  | cons a as ih =>
    intro b c h
    cases b with
    | nil => rfl
    | cons b bs =>
      cases c with
      | nil => rfl
      | cons c cs =>
        have h1 := h ⟨a, b, c⟩ (by simp [Spec.ranges])
        simp only at h1
        simp only [zipFreeze, Spec.ranges, List.map_cons]
        rw [ih bs cs (fun r hr => h r (by simp [Spec.ranges, hr]))]
        congr 1
        unfold mkFreeze Freeze.ofRange
        simp only [sat_eq_of_lt (x := a) (b := n) (by omega) (by omega) (by omega),
          sat_eq_of_lt (x := b) (b := n) (by omega) (by omega) (by omega),
          sat_eq_of_lt (x := c) (b := n) (by omega) (by omega) (by omega)]
        split <;> simp <;> omega

/-- Order in a sorted, non overlapping list. -/
theorem hasOverlap_false {l : List Freeze} (hw : ∀ f ∈ l, f.first ≤ f.last) :
    hasOverlap l = false ↔ l.Pairwise (fun a b => a.last < b.first) := by
  induction l with
  | nil => simp [hasOverlap]
  | cons a l ih =>
    cases l with
    | nil => simp [hasOverlap]
    | cons b l =>
      rw [List.pairwise_cons]
      simp only [hasOverlap, Bool.or_eq_false_iff, decide_eq_false_iff_not,
        ih (fun f hf => hw f (by simp [hf]))]
      constructor
      · rintro ⟨h1, h2⟩
        refine ⟨?_, h2⟩
        intro c hc
        have hb := hw b (by simp)
        rcases List.mem_cons.1 hc with rfl | hc
        · omega
        · have := (List.pairwise_cons.1 h2).1 c hc; omega
      · rintro ⟨h1, h2⟩
        have := h1 b (by simp)
        exact ⟨by omega, h2⟩

def freezeSorted (l : List Freeze) : List Freeze := l.mergeSort (fun a b => decide (a.first ≤ b.first))

theorem freezeSorted_perm (l : List Freeze) : (freezeSorted l).Perm l := List.mergeSort_perm _ _

theorem freezeSorted_sorted (l : List Freeze) : (freezeSorted l).Pairwise (fun a b => a.first ≤ b.first) := by
  have := List.pairwise_mergeSort (le := fun a b : Freeze => decide (a.first ≤ b.first))
    (by intro a b c; simp; omega) (by intro a b; simp; omega) l
  exact this.imp (by simp)

/-- No two listed ranges overlap, whatever their order. -/
def Apart (a b : Freeze) : Prop := a.last < b.first ∨ b.last < a.first

theorem apart_symm {a b : Freeze} (h : Apart a b) : Apart b a := by
  unfold Apart at *; omega

theorem overlap_iff {l : List Freeze} (hw : ∀ f ∈ l, f.first ≤ f.last) :
    hasOverlap (freezeSorted l) = false ↔ l.Pairwise Apart := by
  have hp := freezeSorted_perm l
  have hw' : ∀ f ∈ freezeSorted l, f.first ≤ f.last := fun f hf => hw f (hp.mem_iff.1 hf)
  rw [hasOverlap_false hw', ← hp.pairwise_iff (R := Apart) apart_symm]
  constructor
  · intro h; exact h.imp Or.inl
  · intro h
    have hs := freezeSorted_sorted l
    have := hs.and h
    have hmem : (freezeSorted l).Pairwise (fun a b => a ∈ freezeSorted l ∧ b ∈ freezeSorted l) := by
      rw [List.pairwise_iff_getElem]; intro i j hi hj _; exact ⟨List.getElem_mem _, List.getElem_mem _⟩
    refine (this.and hmem).imp ?_
    rintro a b ⟨⟨h1, h2⟩, h3, h4⟩
    have := hw' b h4
    unfold Apart at h2
    omega

theorem apart_iff (r s : Spec.Range) :
    Apart (Freeze.ofRange r) (Freeze.ofRange s) ↔ ∀ k, ¬ (r.Has k ∧ s.Has k) := by
  unfold Apart Freeze.ofRange Spec.Range.Has
  simp only
  constructor
  · intro h k hk; omega
  · intro h
    have h1 := h (min r.a r.b)
    have h2 := h (min s.a s.b)
    omega

/-- With ranges that are apart, the search in the sorted list finds what a search in the listed order finds. -/
theorem find_perm {l l' : List Freeze} (hp : l'.Perm l) (hd : l.Pairwise Apart) (hw : ∀ f ∈ l, f.first ≤ f.last) (n : Int) :
    l'.find? (fun f => decide (n ≥ f.first) && decide (n ≤ f.last)) =
    l.find? (fun f => decide (n ≥ f.first) && decide (n ≤ f.last)) := by
  induction hp with
  | nil => rfl
  | cons x _ ih =>
    rename_i l1 l2 _
    simp only [List.find?_cons]
    rw [ih (List.pairwise_cons.1 hd).2 (fun f hf => hw f (by simp [hf]))]
  | swap x y l =>
    have h1 := (List.pairwise_cons.1 hd).1 y (by simp)
    unfold Apart at h1
    simp only [List.find?_cons]
    split <;> split <;> (try rfl)
    rename_i _ hy _ hx
    simp only [ge_iff_le, Bool.and_eq_true, decide_eq_true_eq] at hx hy
    omega
  | trans h1 h2 ih1 ih2 =>
    rw [ih1 ((h2.pairwise_iff apart_symm).2 hd) (fun f hf => hw f (h2.mem_iff.1 hf)), ih2 hd hw]

/-- The shortcut test on the two outer ends never hides a range. -/
theorem freezeSrc_eq {l : List Freeze} (hne : l ≠ []) (hw : ∀ f ∈ l, f.first ≤ f.last)
    (hd : l.Pairwise (fun a b => a.last < b.first)) (n : Int) :
    freezeSrc l n = .ok (match l.find? (fun f => decide (n ≥ f.first) && decide (n ≤ f.last)) with
      | some f => f.replacement
      | none => n) := by
  have h1 : l.head? = some (l.head hne) := List.head?_eq_some_head hne
  have h2 : l.getLast? = some (l.getLast hne) := List.getLast?_eq_some_getLast hne
  unfold freezeSrc
  rw [h1, h2]
  simp only
  split
  · cases hf : l.find? (fun f => decide (n ≥ f.first) && decide (n ≤ f.last)) <;> rfl
  · rename_i hout
    cases hf : l.find? (fun f => decide (n ≥ f.first) && decide (n ≤ f.last)) with
    | none => rfl
    | some f =>
      exfalso
      apply hout
      have hfm := List.mem_of_find?_eq_some hf
      have hfp := List.find?_some hf
      simp at hfp
      constructor
      · obtain ⟨a, as, rfl⟩ := List.exists_cons_of_ne_nil hne
        rcases List.mem_cons.1 hfm with rfl | hm
        · simp; omega
        · have h3 := (List.pairwise_cons.1 hd).1 f hm
          have h4 := hw a (by simp)
          simp; omega
      · have hsplit := List.dropLast_concat_getLast hne
        rw [← hsplit] at hfm hd
        rw [List.pairwise_append] at hd
        rcases List.mem_append.1 hfm with hm | hm
        · have h3 := hd.2.2 f hm (l.getLast hne) (by simp)
          have h4 := hw (l.getLast hne) (List.getLast_mem _)
          omega
        · simp at hm; rw [← hm]; omega

theorem ranges_length (a b c : List Int) (h1 : a.length = b.length) (h2 : a.length = c.length) :
    (Spec.ranges a b c).length = a.length := by
  induction a generalizing b c with
  | nil => simp [Spec.ranges]
  | cons a as ih =>
    cases b with
    | nil => simp at h1
    | cons b bs =>
      cases c with
      | nil => simp at h2
      | cons c cs => simp at h1 h2; simp [Spec.ranges, ih bs cs h1 h2]

theorem filterMap_range_getElem {F : Type} (frames : List F) (g : Nat → Nat) (m : Nat)
    (h : ∀ k, k < m → g k < frames.length) :
    ((List.range m).filterMap fun k => frames[g k]?).length = m ∧
    ∀ k, k < m → ((List.range m).filterMap fun k => frames[g k]?)[k]? = frames[g k]? := by
  induction m with
  | zero => simp
  | succ m ih =>
    obtain ⟨ih1, ih2⟩ := ih (fun k hk => h k (by omega))
    have hm := h m (by omega)
    rw [List.range_succ, List.filterMap_append]
    simp only [List.filterMap_cons, List.getElem?_eq_getElem hm, List.filterMap_nil]
    refine ⟨by simp [ih1], ?_⟩
    intro k hk
    by_cases hkm : k = m
    · subst hkm
      rw [List.getElem?_append_right (by omega), ih1, List.getElem?_eq_getElem hm]; simp
    · rw [List.getElem?_append_left (by omega), ih2 k (by omega)]

/-- C32. `FreezeFrames` shows the replacement inside each range and leaves every other frame alone. -/
theorem C32_freeze (clip : Clip (VFrame α)) (hv : clip.Valid) (first last repl : List Int)
    (hl1 : first.length = last.length) (hl2 : first.length = repl.length)
    (h : Spec.FreezeLegal clip.frames.length (Spec.ranges first last repl)) :
    ∃ c, freezeCreate clip first last repl = .ok c ∧
      c.Outputs [clip] (Spec.freeze clip.frames (Spec.ranges first last repl)) := by
  have hcnt := hv.count
  have hr := hv.range
  have hp := hv.pos
  have hfz : ∀ rs : List Spec.Range, (∀ r ∈ rs, 0 ≤ r.repl ∧ r.repl < clip.frames.length) →
      ∀ k, k < clip.frames.length → Spec.frozen rs k < clip.frames.length := by
    intro rs hb k hk
    unfold Spec.frozen
    split
    · rename_i r hf
      have := hb r (List.mem_of_find?_eq_some hf); omega
    · exact hk
  unfold freezeCreate
  rw [if_neg (by omega)]
  by_cases h0 : first.length = 0
  · rw [if_pos h0]
    have e : Spec.ranges first last repl = [] := by
      rw [← List.length_eq_zero_iff, ranges_length _ _ _ hl1 hl2, h0]
    refine ⟨_, rfl, clip, rfl, ?_⟩
    have hg := filterMap_range_getElem clip.frames (Spec.frozen []) clip.frames.length (hfz [] (by simp))
    rw [e]
    apply List.ext_getElem?
    intro k
    by_cases hk : k < clip.frames.length
    · exact (hg.2 k hk).symm
    · rw [List.getElem?_eq_none (by omega), List.getElem?_eq_none (by rw [Spec.freeze, hg.1]; omega)]
  · rw [if_neg h0]
    simp only
    have hz := zipFreeze_eq clip.vi.numFrames hr first last repl (by rw [hcnt]; exact h.bounds)
    rw [hz]
    generalize hrs : Spec.ranges first last repl = rs at *
    have hw : ∀ f ∈ rs.map Freeze.ofRange, f.first ≤ f.last := by
      intro f hf
      obtain ⟨r, _, rfl⟩ := List.mem_map.1 hf
      simp only [Freeze.ofRange]; omega
    have hbad : (rs.map Freeze.ofRange).any (freezeBad clip.vi.numFrames) = false := by
      rw [List.any_eq_false]
      intro f hf
      obtain ⟨r, hrm, rfl⟩ := List.mem_map.1 hf
      have := h.bounds r hrm
      unfold freezeBad Freeze.ofRange
      simp; omega
    have hap : (rs.map Freeze.ofRange).Pairwise Apart := by
      rw [List.pairwise_map]
      exact h.disjoint.imp (fun {r s} hh => (apart_iff r s).2 hh)
    have hov := (overlap_iff hw).2 hap
    have hperm := freezeSorted_perm (rs.map Freeze.ofRange)
    have hw' : ∀ f ∈ freezeSorted (rs.map Freeze.ofRange), f.first ≤ f.last :=
      fun f hf => hw f (hperm.mem_iff.1 hf)
    have hne : freezeSorted (rs.map Freeze.ofRange) ≠ [] := by
      intro e
      have h1 := hperm.length_eq
      rw [e] at h1
      have h2 := ranges_length _ _ _ hl1 hl2
      rw [hrs] at h2
      simp at h1
      omega
    rw [hbad, if_neg (by simp)]
    have hs : List.mergeSort (rs.map Freeze.ofRange) (fun a b => decide (a.first ≤ b.first))
      = freezeSorted (rs.map Freeze.ofRange) := rfl
    rw [hs, hov, if_neg (by simp)]
    refine ⟨_, createVideoFilter_ok hv.info, ?_⟩
    have hb2 : ∀ r ∈ rs, 0 ≤ r.repl ∧ r.repl < clip.frames.length := fun r hrm => (h.bounds r hrm).2.2
    have hg := filterMap_range_getElem clip.frames (Spec.frozen rs) clip.frames.length (hfz rs hb2)
    apply outputs_filter
    · rw [Spec.freeze, hg.1]; simp [freezeFilter, hcnt]
    · intro k hk'
      have hk := hk'
      rw [Spec.freeze, hg.1] at hk
      have hsrc : freezeSrc (freezeSorted (rs.map Freeze.ofRange)) (k : Int) = .ok (Spec.frozen rs k : Nat) := by
        rw [freezeSrc_eq hne hw' ((hasOverlap_false hw').1 hov), find_perm hperm hap hw, List.find?_map]
        unfold Spec.frozen
        have e : ((fun f : Freeze => decide ((k : Int) ≥ f.first) && decide ((k : Int) ≤ f.last)) ∘ Freeze.ofRange)
            = fun r => decide (r.Has (k : Int)) := by
          funext r
          simp only [Function.comp, Freeze.ofRange, Spec.Range.Has, ge_iff_le]
          exact (Bool.decide_and _ _).symm
        rw [e]
        cases hf : rs.find? (fun r => decide (r.Has (k : Int))) with
        | none => rfl
        | some r =>
          have := hb2 r (List.mem_of_find?_eq_some hf)
          simp only [Option.map_some, Freeze.ofRange]
          congr 1; omega
      have hlt : Spec.frozen rs k < clip.frames.length := hfz rs hb2 k hk
      obtain ⟨fetch, a, b⟩ := run_single_lt (c := clip) (clips := [clip]) (i := 0) (k := Spec.frozen rs k)
        (st := (((Spec.frozen rs k : Nat) : Int), 0)) (n := (k : Int))
        (freezeFilter clip.vi (freezeSorted (rs.map Freeze.ofRange)))
        (by simp only [freezeFilter, hsrc, Res.bind_ok, Res.pure_eq]) rfl hv hlt
      rw [b]
      have hgk : (Spec.freeze clip.frames rs)[k]? = clip.frames[Spec.frozen rs k]? := hg.2 k hk
      rw [List.getElem?_eq_getElem hk', List.getElem?_eq_getElem hlt, Option.some.injEq] at hgk
      simp only [freezeFilter, a, retFrame_some, hgk]

/-- Bounds checks see the same thing on saturated values. -/
theorem zipFreeze_bad (n : Int) (h0 : 1 ≤ n) (hn : n ≤ INT_MAX) : ∀ (a b c : List Int),
    (zipFreeze a b c).any (freezeBad n) = false →
    ∀ r ∈ Spec.ranges a b c, 0 ≤ min r.a r.b ∧ max r.a r.b < n ∧ 0 ≤ r.repl ∧ r.repl < n := by
  intro a
  induction a with
  | nil => intro b c _; simp [Spec.ranges]
  | cons a as ih =>
    intro b c h
    cases b with
    | nil => simp [Spec.ranges]
    | cons b bs =>
      cases c with
      | nil => simp [Spec.ranges]
      | cons c cs =>
        simp only [zipFreeze, List.any_cons, Bool.or_eq_false_iff] at h
        simp only [Spec.ranges, List.mem_cons, forall_eq_or_imp]
        refine ⟨?_, ih bs cs h.2⟩
        have h1 := h.1
        have a0 := sat_lt (x := a) (b := 0) (by omega) (by decide)
        have b0 := sat_lt (x := b) (b := 0) (by omega) (by decide)
        have c0 := sat_lt (x := c) (b := 0) (by omega) (by decide)
        have a1 := sat_lt (x := a) (b := n) (by omega) hn
        have b1 := sat_lt (x := b) (b := n) (by omega) hn
        have c1 := sat_lt (x := c) (b := n) (by omega) hn
        unfold freezeBad mkFreeze at h1
        simp only [Bool.or_eq_false_iff, Bool.and_eq_false_iff, decide_eq_false_iff_not] at h1
        split at h1 <;> simp only at h1 <;> omega

/-- C32. Anything else is refused by `FreezeFrames`: lists of different lengths, numbers outside the
clip, overlapping ranges. -/
theorem C32_freeze_reject (clip : Clip (VFrame α)) (hv : clip.Valid) (first last repl : List Int)
    (h : first.length ≠ last.length ∨ first.length ≠ repl.length ∨
      ¬ Spec.FreezeLegal clip.frames.length (Spec.ranges first last repl)) :
    ∃ msg, freezeCreate clip first last repl = .err msg := by
  have hcnt := hv.count
  have hr := hv.range
  have hp := hv.pos
  unfold freezeCreate
  split
  · exact ⟨_, rfl⟩
  rename_i hl
  have hleg : ¬ Spec.FreezeLegal clip.frames.length (Spec.ranges first last repl) := by
    rcases h with h | h | h
    · omega
    · omega
    · exact h
  split
  · rename_i h0
    exfalso; apply hleg
    have e : Spec.ranges first last repl = [] := by
      rw [← List.length_eq_zero_iff, ranges_length _ _ _ (by omega) (by omega), h0]
    rw [e]; exact ⟨by simp, by simp⟩
  simp only
  split
  · exact ⟨_, rfl⟩
  rename_i hbad
  have hb := zipFreeze_bad clip.vi.numFrames hp hr first last repl (by simpa using hbad)
  rw [zipFreeze_eq clip.vi.numFrames hr first last repl hb]
  have hw : ∀ f ∈ (Spec.ranges first last repl).map Freeze.ofRange, f.first ≤ f.last := by
    intro f hf
    obtain ⟨r, _, rfl⟩ := List.mem_map.1 hf
    simp only [Freeze.ofRange]; omega
  rw [show List.mergeSort ((Spec.ranges first last repl).map Freeze.ofRange)
      (fun a b => decide (a.first ≤ b.first)) = freezeSorted ((Spec.ranges first last repl).map Freeze.ofRange) from rfl]
  split
  · exact ⟨_, rfl⟩
  · rename_i hov
    exfalso; apply hleg
    rw [Bool.not_eq_true, overlap_iff hw, List.pairwise_map] at hov
    exact ⟨by rw [← hcnt]; exact hb, hov.imp (fun {r s} hh => (apart_iff r s).1 hh)⟩

example : Spec.FreezeLegal (demo 6).frames.length (Spec.ranges [4, 0] [3, 1] [0, 5]) ∧
    (Spec.freeze (demo 6).frames (Spec.ranges [4, 0] [3, 1] [0, 5])).map (·.pix) = [5, 5, 2, 0, 0, 5] := by
  refine ⟨⟨by decide, ?_⟩, by decide⟩
  simp [Spec.ranges, Spec.Range.Has]
  intro k; omega

end VS.Reorder
