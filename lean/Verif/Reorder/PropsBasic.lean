import Verif.Reorder.Lemmas

/-!
# C27, C28: Trim, Reverse, Loop
-/

namespace VS.Reorder

variable {α : Type}

/-! ## C27 -/

/-- C27. With legal arguments `Trim` succeeds, outputs exactly the requested range and declares its
length; everything else about the clip is unchanged. -/
theorem C27_trim (clip : Clip (VFrame α)) (hv : clip.Valid) (first last length : Option Int)
    (h : Spec.TrimLegal clip.frames.length first last length) :
    ∃ c, trimCreate clip first last length = .ok c ∧
      c.Outputs [clip] (Spec.trim clip.frames first last length) ∧
      c.info [clip] = some { clip.vi with
        numFrames := Spec.trimCount clip.frames.length first last length } := by
  obtain ⟨h1, h2, h3, h4, h5⟩ := h
  have hcnt := hv.count
  have hr := hv.range
  have hf : argS first = first.getD 0 := by
    rw [argS_eq]; exact sat_eq_of_lt h1 h2 (by omega)
  have hl : ∀ l, last = some l → int64ToIntS l = l := fun l e => by
    have := h4 l e; exact sat_eq_of_lt (by omega) this.2 (by omega)
  have hk : ∀ k, length = some k → int64ToIntS k = k := fun k e => by
    have := h5 k e
    exact sat_eq_of_lt (b := k + 1) (by omega) (by omega) (by omega)
  have hlen : trimLen (argS first) clip.vi.numFrames last length
      = Spec.trimCount clip.frames.length first last length := by
    rw [hf]
    unfold trimLen Spec.trimCount
    cases last with
    | some l => simp only [hl l rfl]; omega
    | none =>
      cases length with
      | some k => simp only [hk k rfl]
      | none => simp [hcnt]
  have hpos : 1 ≤ Spec.trimCount clip.frames.length first last length ∧
      first.getD 0 + Spec.trimCount clip.frames.length first last length ≤ clip.frames.length := by
    unfold Spec.trimCount
    cases last with
    | some l => have := h4 l rfl; simp only; omega
    | none =>
      cases length with
      | some k => have := h5 k rfl; simp only; omega
      | none => simp only; omega
  have e1 : ¬ argS first < 0 := by omega
  have e2 : ¬ argS first ≥ clip.vi.numFrames := by omega
  have e3 : ¬ (last.isSome && length.isSome) = true := by simpa using h3
  have e4 : ¬ (last.isSome ∧ argS last < argS first) := by
    rintro ⟨a, b⟩
    obtain ⟨l, rfl⟩ := Option.isSome_iff_exists.1 a
    have := h4 l rfl; have := hl l rfl
    simp only [argS] at b
    simp only [argS] at hf
    omega
  have e5 : ¬ (length.isSome ∧ argS length < 1) := by
    rintro ⟨a, b⟩
    obtain ⟨l, rfl⟩ := Option.isSome_iff_exists.1 a
    have := h5 l rfl; have := hk l rfl
    simp only [argS] at b
    omega
  have e6 : ¬ ((last.isSome ∧ argS last ≥ clip.vi.numFrames) ∨
      (length.isSome ∧ argS length > clip.vi.numFrames - argS first)) := by
    rintro (⟨a, b⟩ | ⟨a, b⟩)
    · obtain ⟨l, rfl⟩ := Option.isSome_iff_exists.1 a
      have := h4 l rfl; have := hl l rfl
      simp only [argS] at b
      omega
    · obtain ⟨l, rfl⟩ := Option.isSome_iff_exists.1 a
      have := h5 l rfl; have := hk l rfl
      simp only [hf] at b
      simp only [argS] at b
      omega
  unfold trimCreate
  simp only [hlen]
  rw [if_neg e1, if_neg e2, if_neg e3, if_neg e4, if_neg e5, if_neg e6]
  split
  · rename_i hp
    have hfull : first.getD 0 = 0 ∧ Spec.trimCount clip.frames.length first last length = clip.frames.length := by
      rcases hp with ⟨a, b, c⟩ | ⟨a, b⟩
      · rw [Option.isNone_iff_eq_none] at a b c
        subst a b c; simp [Spec.trimCount]
      · omega
    refine ⟨_, rfl, ⟨clip, by simp, ?_⟩, ?_⟩
    · unfold Spec.trim
      rw [hfull.1, hfull.2]; simp
    · simp only [Created.info, List.getElem?_cons_zero, Option.map_some]
      rw [hfull.2, ← hcnt]
  · refine ⟨_, createVideoFilter_ok ?_, outputs_filter ?_ ?_, rfl⟩
    · exact valid_withNumFrames hv.info hpos.1
    · simp only [trimFilter, Spec.trim, List.length_take, List.length_drop]
      omega
    · intro k hkl
      simp only [Spec.trim, List.length_take, List.length_drop] at hkl
      have hin : InI32 ((k : Int) + argS first) := by
        simp only [InI32, INT_MIN, INT_MAX] at *; omega
      have hlt : k + (first.getD 0).toNat < clip.frames.length := by omega
      have ek : (k : Int) + argS first = ((k + (first.getD 0).toNat : Nat) : Int) := by omega
      have hi : i32 ((k : Int) + argS first) = .ok ((k + (first.getD 0).toNat : Nat) : Int) := by
        rw [i32_ok hin, ek]
      obtain ⟨fetch, a, b⟩ := run_single_lt (c := clip) (clips := [clip]) (i := 0)
        (k := k + (first.getD 0).toNat) (st := (0, 0)) (n := (k : Int))
        (trimFilter { clip.vi with numFrames := Spec.trimCount clip.frames.length first last length } (argS first))
        (by simp only [trimFilter, hi, Res.bind_ok, Res.pure_eq]) rfl hv hlt
      rw [b]
      simp only [trimFilter, hi, Res.bind_ok, a, retFrame_some, Spec.trim, List.getElem_take,
        List.getElem_drop, Nat.add_comm]

/-- C27, the other half: illegal arguments are refused.  `length` is read as a 32 bit value, so
the statement is for lengths that are representable, or any length if the clip is not of the maximal
length itself. -/
theorem C27_trim_reject (clip : Clip (VFrame α)) (hv : clip.Valid) (first last length : Option Int)
    (hsat : ∀ k, length = some k → k ≤ INT_MAX ∨ clip.vi.numFrames < INT_MAX)
    (h : ¬ Spec.TrimLegal clip.frames.length first last length) :
    ∃ msg, trimCreate clip first last length = .err msg := by
  have hcnt := hv.count
  have hr := hv.range
  have hp := hv.pos
  unfold trimCreate
  simp only
  split
  · exact ⟨_, rfl⟩
  rename_i e1
  split
  · exact ⟨_, rfl⟩
  rename_i e2
  split
  · exact ⟨_, rfl⟩
  rename_i e3
  split
  · exact ⟨_, rfl⟩
  rename_i e4
  split
  · exact ⟨_, rfl⟩
  rename_i e5
  split
  · exact ⟨_, rfl⟩
  rename_i e6
  exfalso
  apply h
  rw [argS_eq] at e1 e2
  rw [sat_lt (by omega) (by decide)] at e1
  rw [ge_iff_le, Int.not_le, sat_lt (by omega) hr] at e2
  have hf : argS first = first.getD 0 := by
    rw [argS_eq]; exact sat_eq_of_lt (b := clip.vi.numFrames) (by omega) e2 (by omega)
  refine ⟨by omega, by omega, by simpa using e3, ?_, ?_⟩
  · intro l hl
    subst hl
    simp only [argS, Option.isSome_some, true_and] at e4 e6 hf
    simp only [hf, Int.not_lt, not_or, ge_iff_le, Int.not_le] at e4 e6
    have h6 := e6.1
    rw [sat_lt (by omega) hr] at h6
    have : ¬ int64ToIntS l < first.getD 0 := by omega
    rw [sat_lt (by omega) (by omega)] at this
    omega
  · intro k hk
    subst hk
    have := hsat k rfl
    simp only [argS, Option.isSome_some, true_and] at e5 e6 hf
    simp only [hf, Int.not_lt, not_or, gt_iff_lt] at e5 e6
    have h6 := e6.2
    have h7 : ¬ int64ToIntS k < 1 := by omega
    rw [sat_lt (by omega) (by decide)] at h7
    have h8 : int64ToIntS k ≤ k := by
      unfold int64ToIntS INT_MAX INT_MIN at *; split <;> (try split) <;> omega
    have h9 : k ≤ int64ToIntS k := by
      unfold int64ToIntS INT_MAX INT_MIN at *; split <;> (try split) <;> omega
    omega

/-- A clip of `n` frames numbered from 0, used in the examples. -/
def demo (n : Nat) : Clip (VFrame Nat) where
  vi := ⟨1, 24000, 1001, 640, 480, n⟩
  frames := (List.range n).map fun i => ⟨i, some 1001, some 24000⟩

theorem demo_valid (n : Nat) (h1 : 1 ≤ n) (h2 : (n : Int) ≤ INT_MAX) : (demo n).Valid := by
  refine ⟨?_, by simp [demo], h2⟩
  have := valid_withNumFrames (vi := ⟨1, 24000, 1001, 640, 480, 1⟩) (by decide +kernel) (n := n) (by omega)
  exact this

example : Spec.TrimLegal (demo 10).frames.length (some 3) none (some 4) ∧
    (Spec.trim (demo 10).frames (some 3) none (some 4)).map (·.pix) = [3, 4, 5, 6] := by
  refine ⟨⟨by decide, by decide, by decide, by simp, ?_⟩, by decide⟩
  intro k hk
  obtain rfl : 4 = k := by simpa using hk
  decide

/-- C27, `last` counts inclusively; illegal combinations exist. -/
example : ¬ Spec.TrimLegal (demo 10).frames.length (some 3) (some 2) none := by
  intro h; have := (h.last_ok 2 rfl).1; revert this; decide

/-- The one place where saturation shows: on a clip of maximal length any larger `length` means
"all of it". -/
theorem C27_trim_saturated (clip : Clip (VFrame α)) (hn : clip.vi.numFrames = INT_MAX) (k : Int) (hk : INT_MAX ≤ k) :
    trimCreate clip none none (some k) = .ok (.passthrough 0) := by
  have : int64ToIntS k = INT_MAX := by unfold int64ToIntS INT_MAX INT_MIN at *; split <;> (try split) <;> omega
  simp [trimCreate, argS, trimLen, this, hn, INT_MAX]

/-! ## C28 -/

/-- C28. `Reverse` outputs the frames in reverse order. -/
theorem C28_reverse (clip : Clip (VFrame α)) (hv : clip.Valid) :
    ∃ c, reverseCreate clip = .ok c ∧ c.Outputs [clip] clip.frames.reverse ∧ c.info [clip] = some clip.vi := by
  have hcnt := hv.count
  have hr := hv.range
  refine ⟨_, createVideoFilter_ok hv.info, outputs_filter (by simp [reverseFilter, hcnt]) ?_, rfl⟩
  intro k hk
  simp only [List.length_reverse] at hk
  have hin : InI32 (clip.vi.numFrames - k - 1) := by simp only [InI32, INT_MIN, INT_MAX] at *; omega
  have ek : max (clip.vi.numFrames - k - 1) 0 = ((clip.frames.length - 1 - k : Nat) : Int) := by omega
  obtain ⟨fetch, a, b⟩ := run_single_lt (c := clip) (clips := [clip]) (i := 0)
    (k := clip.frames.length - 1 - k) (st := (0, 0)) (n := (k : Int)) (reverseFilter clip.vi)
    (by simp only [reverseFilter, i32_ok hin, Res.bind_ok, Res.pure_eq, ek]) rfl hv (by omega)
  rw [b]
  simp only [reverseFilter, i32_ok hin, Res.bind_ok, ek, a, retFrame_some, List.getElem_reverse]

/-- C28. Reversing the reversed clip gives the original back. -/
theorem C28_reverse_twice (clip : Clip (VFrame α)) (hv : clip.Valid) :
    ∃ c c', reverseCreate clip = .ok c ∧ ∃ rev, c.Outputs [clip] rev ∧
      reverseCreate ⟨clip.vi, rev⟩ = .ok c' ∧ c'.Outputs [⟨clip.vi, rev⟩] clip.frames := by
  obtain ⟨c, h1, h2, -⟩ := C28_reverse clip hv
  have hv' : (⟨clip.vi, clip.frames.reverse⟩ : Clip (VFrame α)).Valid :=
    ⟨hv.info, by simpa using hv.count, hv.range⟩
  obtain ⟨c', h3, h4, -⟩ := C28_reverse _ hv'
  exact ⟨c, c', h1, _, h2, h3, by simpa using h4⟩

theorem repeated_getElem {F : Type} (l : List F) (t k : Nat) (h : k < t * l.length) :
    ∃ h' : k % l.length < l.length, (Spec.repeated l t)[k]? = some (l[k % l.length]'h') := by
  have hpos : 0 < l.length := by
    rcases Nat.eq_zero_or_pos l.length with e | e
    · simp [e] at h
    · exact e
  refine ⟨Nat.mod_lt _ hpos, ?_⟩
  unfold Spec.repeated
  induction t generalizing k with
  | zero => simp at h
  | succ t ih =>
    rw [List.replicate_succ, List.flatten_cons]
    by_cases hk : k < l.length
    · rw [List.getElem?_append_left hk]
      simp [Nat.mod_eq_of_lt hk]
    · rw [List.getElem?_append_right (by omega), ih (k - l.length) (by rw [Nat.succ_mul] at h; omega)]
      have : k % l.length = (k - l.length) % l.length := by
        conv => lhs; rw [← Nat.sub_add_cancel (Nat.le_of_not_lt hk)]
        simp
      simp only [this]

theorem repeated_length {F : Type} (l : List F) (t : Nat) : (Spec.repeated l t).length = t * l.length := by
  unfold Spec.repeated
  simp

theorem loop_run (clip : Clip (VFrame α)) (hv : clip.Valid) (vi : VideoInfo) (k : Nat) :
    (loopFilter vi clip.vi.numFrames).run [clip] k
      = .ok (clip.frames[k % clip.frames.length]'(Nat.mod_lt _ hv.len_pos)) := by
  have hcnt := hv.count
  have hp := hv.pos
  have hlt := Nat.mod_lt k hv.len_pos
  have ek : (k : Int).tmod clip.vi.numFrames = ((k % clip.frames.length : Nat) : Int) := by
    rw [hcnt]; rfl
  obtain ⟨fetch, a, b⟩ := run_single_lt (c := clip) (clips := [clip]) (i := 0)
    (k := k % clip.frames.length) (st := (0, 0)) (n := (k : Int)) (loopFilter vi clip.vi.numFrames)
    (by simp only [loopFilter, ek, show ¬ clip.vi.numFrames = 0 by omega, if_false]) rfl hv hlt
  rw [b]
  simp only [loopFilter, ek, a, retFrame_some, show ¬ clip.vi.numFrames = 0 by omega, if_false]

/-- C28. `Loop` with a positive count whose result is not too long outputs the clip repeated. -/
theorem C28_loop (clip : Clip (VFrame α)) (hv : clip.Valid) (times : Int) (ht : 1 ≤ times)
    (hfit : times * clip.frames.length ≤ INT_MAX) :
    ∃ c, loopCreate clip (some times) = .ok c ∧
      c.Outputs [clip] (Spec.repeated clip.frames times.toNat) ∧
      c.info [clip] = some { clip.vi with numFrames := times * clip.frames.length } := by
  have hcnt := hv.count
  have hr := hv.range
  have hp := hv.pos
  have hmul : times ≤ times * clip.frames.length := by
    have : times * 1 ≤ times * clip.frames.length := Int.mul_le_mul_of_nonneg_left (by omega) (by omega)
    omega
  have hs : int64ToIntS times = times := by
    apply sat_eq_of_lt (b := times + 1) <;> omega
  unfold loopCreate
  simp only [argS, hs]
  rw [if_neg (by omega)]
  split
  · rename_i h1
    subst h1
    refine ⟨_, rfl, ⟨clip, by simp, by simp [Spec.repeated]⟩, ?_⟩
    simp [Created.info, ← hcnt]
  · rw [if_pos (by omega)]
    have hmul' : clip.vi.numFrames * times = times * clip.frames.length := by rw [hcnt, Int.mul_comm]
    have hdiv : ¬ clip.vi.numFrames > INT_MAX.tdiv times := by
      rw [Int.tdiv_eq_ediv_of_nonneg (by decide), gt_iff_lt, Int.not_lt, Int.le_ediv_iff_mul_le (by omega)]
      omega
    have hin : InI32 (times * clip.frames.length) := by simp only [InI32, INT_MIN, INT_MAX] at *; omega
    rw [if_neg hdiv, hmul', i32_ok hin]
    simp only [Res.bind_ok]
    refine ⟨_, createVideoFilter_ok ?_, outputs_filter ?_ ?_, rfl⟩
    · exact valid_withNumFrames hv.info (by omega)
    · simp only [loopFilter, repeated_length]
      rw [Int.natCast_mul]; congr 1; omega
    · intro k hk
      rw [loop_run clip hv]
      rw [repeated_length] at hk
      obtain ⟨h', e⟩ := repeated_getElem clip.frames times.toNat k hk
      rw [List.getElem?_eq_getElem (by rw [repeated_length]; exact hk), Option.some.injEq] at e
      rw [e]

/-- C28. A result that would be longer than the maximum is refused, a negative count too. -/
theorem C28_loop_reject (clip : Clip (VFrame α)) (hv : clip.Valid) (times : Int)
    (h : times < 0 ∨ (INT_MAX < times * clip.frames.length ∧ (times ≤ INT_MAX ∨ 2 ≤ clip.frames.length))) :
    ∃ msg, loopCreate clip (some times) = .err msg := by
  have hcnt := hv.count
  have hr := hv.range
  have hp := hv.pos
  have ea : argS (some times) = int64ToIntS times := rfl
  unfold loopCreate
  simp only
  rcases h with h | ⟨h, h2⟩
  · have h' : int64ToIntS times < 0 := (sat_lt (by omega) (by decide)).2 h
    rw [if_pos (by omega)]; exact ⟨_, rfl⟩
  · have ht : 1 ≤ times := by
      rcases Int.lt_or_le times 1 with h' | h'
      · have : times * clip.frames.length ≤ 0 := by
          apply Int.mul_nonpos_of_nonpos_of_nonneg <;> omega
        simp only [INT_MAX] at h; omega
      · exact h'
    have key : INT_MAX < clip.vi.numFrames * int64ToIntS times ∧ 1 ≤ int64ToIntS times ∧ int64ToIntS times ≠ 1 := by
      by_cases hle : times ≤ INT_MAX
      · have e : int64ToIntS times = times := by apply sat_eq_of_lt (b := times + 1) <;> omega
        rw [e, hcnt, Int.mul_comm]
        refine ⟨h, ht, ?_⟩
        rintro rfl; omega
      · have e : int64ToIntS times = INT_MAX := by
          unfold int64ToIntS INT_MAX INT_MIN at *; split <;> (try split) <;> omega
        rw [e]
        have h3 : 2 ≤ clip.frames.length := by omega
        have : 2 * INT_MAX ≤ clip.vi.numFrames * INT_MAX := Int.mul_le_mul_of_nonneg_right (by omega) (by decide)
        simp only [INT_MAX] at *
        omega
    rw [← ea] at key
    rw [if_neg (by omega), if_neg key.2.2, if_pos (by omega), if_pos]
    · exact ⟨_, rfl⟩
    · rw [Int.tdiv_eq_ediv_of_nonneg (by decide), gt_iff_lt]
      apply Int.lt_of_not_ge
      rw [Int.le_ediv_iff_mul_le (by omega)]
      omega

/-- C28. With `times` 0 or not given the clip is repeated up to the maximal length. -/
theorem C28_loop_forever (clip : Clip (VFrame α)) (hv : clip.Valid) (times : Option Int)
    (ht : times = none ∨ times = some 0) :
    ∃ f, loopCreate clip times = .ok (.filter f) ∧ f.vi = { clip.vi with numFrames := INT_MAX } ∧
      ∀ k : Nat, (k : Int) < INT_MAX →
        f.run [clip] k = .ok (clip.frames[k % clip.frames.length]'(Nat.mod_lt _ hv.len_pos)) := by
  have e : argS times = 0 := by rcases ht with rfl | rfl <;> rfl
  unfold loopCreate
  simp only [e]
  refine ⟨_, createVideoFilter_ok ?_, rfl, fun k _ => loop_run clip hv _ k⟩
  exact valid_withNumFrames hv.info (by decide)

example : (demo 3).Valid ∧ (Spec.repeated (demo 3).frames 2).map (·.pix) = [0, 1, 2, 0, 1, 2] :=
  ⟨demo_valid 3 (by decide) (by decide), by decide⟩

example : INT_MAX < 1000000000 * ((demo 3).frames.length : Int) := by decide

end VS.Reorder
