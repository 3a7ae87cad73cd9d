import Verif.Wave.LemmasFile

/-!
# Helper lemmas: headers
-/

namespace VS.Wave

set_option linter.unusedSimpArgs false
open VS VS.Audio

theorem leAt_skip (pre t : List Nat) (off w : Nat) (h : pre.length ≤ off) :
    leAt (pre ++ t) off w = leAt t (off - pre.length) w := by
  apply sumTo_congr
  intro x _
  rw [List.getElem?_append_right (by omega), show off + x - pre.length = off - pre.length + x by omega]

theorem bytesAt_skip (pre t : List Nat) (off n : Nat) (h : pre.length ≤ off) :
    bytesAt (pre ++ t) off n = bytesAt t (off - pre.length) n := by
  unfold bytesAt
  rw [List.drop_append, List.drop_eq_nil_of_le h, List.nil_append]

theorem drop_skip (pre t : List Nat) (k : Nat) (h : pre.length ≤ k) : (pre ++ t).drop k = t.drop (k - pre.length) := by
  rw [List.drop_append, List.drop_eq_nil_of_le h, List.nil_append]

theorem bytesAt_head (l t : List Nat) (n : Nat) (h : l.length = n) : bytesAt (l ++ t) 0 n = l := by
  unfold bytesAt
  rw [List.drop_zero, ← h, List.take_left]

theorem ofLe_le : ∀ (w v : Nat), ofLe (le w v) = v % 256 ^ w
  | 0, v => by simp [le, ofLe, Nat.mod_one]
  | w + 1, v => by
    rw [le, ofLe, ofLe_le w, Nat.pow_succ, Nat.mul_comm (256 ^ w), Nat.mod_mul]

theorem field_length (big : Bool) (w : Nat) (v : Int) : (field big w v).length = w := by rw [field_eq, le_length]

/-- A number field is read back. -/
theorem leAt_head (big : Bool) (t : List Nat) (w : Nat) (v : Int) : leAt (field big w v ++ t) 0 w = (v % 256 ^ w).toNat := by
  rw [field_eq]
  generalize hx : (v % 256 ^ w).toNat = x
  have hlt : x < 256 ^ w := by
    have hp : (0 : Int) < 256 ^ w := Int.pow_pos (by omega)
    have h1 := Int.emod_lt_of_pos v hp
    have h0 := Int.emod_nonneg v (Int.ne_of_gt hp)
    have h2 : (x : Int) < ((256 ^ w : Nat) : Int) := by
      rw [Int.natCast_pow]
      show (x : Int) < 256 ^ w
      omega
    exact Int.ofNat_lt.mp h2
  have : leAt (le w x ++ t) 0 w = ofLe (le w x) := by
    rw [ofLe_sum, le_length]
    apply sumTo_congr
    intro k hk
    rw [Nat.zero_add, List.getElem?_append_left (by rw [le_length]; exact hk)]
  rw [this, ofLe_le, Nat.mod_eq_of_lt hlt]

theorem createFormat_length {big isFloat : Bool} {bits rate : Int} {mask : Nat} {l : List Nat}
    (h : createFormat big isFloat bits rate mask = some l) : l.length = 40 := by
  unfold createFormat at h
  split at h
  · cases h
  · simp only [Option.some.injEq] at h
    subst h
    simp [field_length, subFormat]

theorem leAt_shift (pre t : List Nat) (off k w : Nat) (h : pre.length = off) : leAt (pre ++ t) (off + k) w = leAt t k w := by
  rw [leAt_skip _ _ _ _ (by omega), h, Nat.add_sub_cancel_left]

theorem leAt_shift0 (pre t : List Nat) (off w : Nat) (h : pre.length = off) : leAt (pre ++ t) off w = leAt t 0 w :=
  leAt_shift pre t off 0 w h

theorem bytesAt_shift (pre t : List Nat) (off k n : Nat) (h : pre.length = off) : bytesAt (pre ++ t) (off + k) n = bytesAt t k n := by
  rw [bytesAt_skip _ _ _ _ (by omega), h, Nat.add_sub_cancel_left]

theorem format_ok {big : Bool} {ai : AudioInfo} (hc : Clip ai) {l : List Nat}
    (h : createFormat big (ai.format.sampleType == 1) ai.format.bitsPerSample ai.sampleRate ai.format.channelLayout = some l)
    (pre post : List Nat) (off : Nat) (ho : pre.length = off) : IsFormat ai (pre ++ (l ++ post)) off := by
  obtain ⟨hf, _, hr⟩ := Facts.of hc
  have hrate := hc.rate
  unfold INT_MAX at hrate
  have hpc := popcount_le ai.format.channelLayout
  rw [← hf.chans] at hpc
  have hw : width ai.format ≤ 4 := by unfold width; split <;> (try split) <;> omega
  have hcw : ai.format.numChannels * width ai.format ≤ 64 * 4 := Nat.mul_le_mul hpc hw
  have hbits := hf.bits
  unfold createFormat at h
  split at h
  · cases h
  · next hm =>
    simp only [Option.some.injEq, hf.out, ← hf.chans] at h
    subst h
    have hmask : ai.format.channelLayout < 2 ^ 32 := by omega
    simp only [List.append_assoc]
    constructor
    · rw [leAt_shift0 _ _ _ _ ho]
      simp [leAt, sumTo]
    · rw [leAt_shift _ _ _ _ _ ho]
      simp only [leAt_skip, leAt_head, field_length, List.length_cons, List.length_nil, Nat.zero_add, Nat.reduceLeDiff,
        Nat.reduceSub, Nat.reduceAdd, Nat.le_refl, Nat.sub_self]
      omega
    · rw [leAt_shift _ _ _ _ _ ho]
      simp only [leAt_skip, leAt_head, field_length, List.length_cons, List.length_nil, Nat.zero_add, Nat.reduceLeDiff,
        Nat.reduceSub, Nat.reduceAdd, Nat.le_refl, Nat.sub_self]
      omega
    · intro hlt
      rw [leAt_shift _ _ _ _ _ ho]
      simp only [leAt_skip, leAt_head, field_length, List.length_cons, List.length_nil, Nat.zero_add, Nat.reduceLeDiff,
        Nat.reduceSub, Nat.reduceAdd, Nat.le_refl, Nat.sub_self]
      have e : (ai.format.numChannels : Int) * (width ai.format : Int) * ai.sampleRate =
          ai.sampleRate * ai.format.numChannels * width ai.format := by ac_rfl
      rw [e]
      have h0 : 0 ≤ ai.sampleRate * ai.format.numChannels * width ai.format :=
        Int.mul_nonneg (Int.mul_nonneg (by omega) (by omega)) (by omega)
      generalize ai.sampleRate * ai.format.numChannels * width ai.format = x at *
      omega
    · rw [leAt_shift _ _ _ _ _ ho]
      simp only [leAt_skip, leAt_head, field_length, List.length_cons, List.length_nil, Nat.zero_add, Nat.reduceLeDiff,
        Nat.reduceSub, Nat.reduceAdd, Nat.le_refl, Nat.sub_self]
      rw [← Int.natCast_mul]
      generalize ai.format.numChannels * width ai.format = x at *
      omega
    · rw [leAt_shift _ _ _ _ _ ho]
      simp only [leAt_skip, leAt_head, field_length, List.length_cons, List.length_nil, Nat.zero_add, Nat.reduceLeDiff,
        Nat.reduceSub, Nat.reduceAdd, Nat.le_refl, Nat.sub_self]
      omega
    · rw [leAt_shift _ _ _ _ _ ho]
      simp only [leAt_skip, leAt_head, field_length, List.length_cons, List.length_nil, Nat.zero_add, Nat.reduceLeDiff,
        Nat.reduceSub, Nat.reduceAdd, Nat.le_refl, Nat.sub_self]
      rfl
    · rw [leAt_shift _ _ _ _ _ ho]
      simp only [leAt_skip, leAt_head, field_length, List.length_cons, List.length_nil, Nat.zero_add, Nat.reduceLeDiff,
        Nat.reduceSub, Nat.reduceAdd, Nat.le_refl, Nat.sub_self]
      omega
    · rw [leAt_shift _ _ _ _ _ ho]
      simp only [leAt_skip, leAt_head, field_length, List.length_cons, List.length_nil, Nat.zero_add, Nat.reduceLeDiff,
        Nat.reduceSub, Nat.reduceAdd, Nat.le_refl, Nat.sub_self]
      omega
    · rw [leAt_shift _ _ _ _ _ ho]
      simp only [leAt_skip, leAt_head, field_length, List.length_cons, List.length_nil, Nat.zero_add, Nat.reduceLeDiff,
        Nat.reduceSub, Nat.reduceAdd, Nat.le_refl, Nat.sub_self]
      by_cases hs : ai.format.sampleType = 1 <;> simp [leAt, sumTo, subFormat, hs]
    · rw [bytesAt_shift _ _ _ _ _ ho]
      simp only [bytesAt_skip, field_length, List.length_cons, List.length_nil, Nat.zero_add, Nat.reduceLeDiff,
        Nat.reduceSub, Nat.reduceAdd, Nat.le_refl, Nat.sub_self]
      rfl

/-- The size of the data as the headers have it. -/
theorem dataSize_eq {ai : AudioInfo} (hc : Clip ai) :
    dataSize ai.format.bitsPerSample ai.format.channelLayout ai.numSamples = total ai ∧ total ai < 2 ^ 51 := by
  obtain ⟨hf, hs, _⟩ := Facts.of hc
  have hsam := hc.samples
  unfold MAX_SAMPLES INT_MAX SAMPLES at hsam
  have hpc := popcount_le ai.format.channelLayout
  rw [← hf.chans] at hpc
  have hw : width ai.format ≤ 4 := by unfold width; split <;> (try split) <;> omega
  have hcw : ai.format.numChannels * width ai.format ≤ 64 * 4 := Nat.mul_le_mul hpc hw
  unfold dataSize
  rw [hf.out, ← hf.chans]
  have e : (ai.format.numChannels : Int) * (width ai.format : Int) * ai.numSamples = (total ai : Int) := by
    unfold total
    rw [Int.natCast_mul, Int.natCast_mul, Int.toNat_of_nonneg (by omega)]
    ac_rfl
  have h2 : total ai < 2 ^ 51 := by
    unfold total
    have : ai.numSamples.toNat ≤ 2147483647 * 3072 := by omega
    rw [Nat.mul_assoc]
    have := Nat.mul_le_mul this hcw
    omega
  rw [e]
  refine ⟨?_, h2⟩
  omega

theorem wave_ok {big : Bool} {ai : AudioInfo} (hc : Clip ai) (d : List Nat) (hd : d.length = total ai) :
    (ai.format.channelLayout < 2 ^ 32 ∧ 68 + total ai ≤ maxWaveFileSize →
      ∃ hd, header big .wave ai = some hd ∧ IsWave ai (hd ++ d) d) ∧
    (¬(ai.format.channelLayout < 2 ^ 32 ∧ 68 + total ai ≤ maxWaveFileSize) → header big .wave ai = none) := by
  obtain ⟨hs, hlt⟩ := dataSize_eq hc
  show (_ → ∃ hd, createWave _ _ _ _ _ _ = some hd ∧ _) ∧ (_ → createWave _ _ _ _ _ _ = none)
  unfold createWave
  simp only [hs]
  constructor
  · intro ⟨hm, hsz⟩
    rw [if_neg (by omega)]
    unfold maxWaveFileSize at hsz
    cases hcf : createFormat big (ai.format.sampleType == 1) ai.format.bitsPerSample ai.sampleRate ai.format.channelLayout with
    | none =>
      unfold createFormat at hcf
      rw [if_neg (by omega)] at hcf
      cases hcf
    | some wfx =>
      have hl := createFormat_length hcf
      refine ⟨_, rfl, ?_⟩
      simp only [List.append_assoc]
      constructor
      · rfl
      · simp only [leAt_skip, leAt_head, field_length, List.length_cons, List.length_nil, Nat.zero_add, Nat.reduceLeDiff,
          Nat.reduceSub, Nat.reduceAdd, Nat.le_refl, Nat.sub_self, List.length_append, hl, hd]
        omega
      · simp only [bytesAt_skip, field_length, List.length_cons, List.length_nil, Nat.zero_add, Nat.reduceLeDiff,
          Nat.reduceSub, Nat.reduceAdd, Nat.le_refl, Nat.sub_self]
        rfl
      · simp only [bytesAt_skip, field_length, List.length_cons, List.length_nil, Nat.zero_add, Nat.reduceLeDiff,
          Nat.reduceSub, Nat.reduceAdd, Nat.le_refl, Nat.sub_self]
        rfl
      · simp only [leAt_skip, leAt_head, field_length, List.length_cons, List.length_nil, Nat.zero_add, Nat.reduceLeDiff,
          Nat.reduceSub, Nat.reduceAdd, Nat.le_refl, Nat.sub_self]
        rfl
      · have := format_ok hc hcf ([0x52, 0x49, 0x46, 0x46] ++ field big 4 (68 - 4 - 4 + (total ai : Int)) ++
          [0x57, 0x41, 0x56, 0x45] ++ [0x66, 0x6D, 0x74, 0x20] ++ field big 4 40)
          ([0x64, 0x61, 0x74, 0x61] ++ (field big 4 (total ai : Int) ++ d)) 20 (by simp [field_length])
        simpa only [List.append_assoc] using this
      · simp only [bytesAt_skip, field_length, hl, List.length_cons, List.length_nil, Nat.zero_add, Nat.reduceLeDiff,
          Nat.reduceSub, Nat.reduceAdd, Nat.le_refl, Nat.sub_self]
        rfl
      · simp only [leAt_skip, leAt_head, field_length, hl, List.length_cons, List.length_nil, Nat.zero_add, Nat.reduceLeDiff,
          Nat.reduceSub, Nat.reduceAdd, Nat.le_refl, Nat.sub_self, hd]
        omega
      · simp only [drop_skip, field_length, hl, List.length_cons, List.length_nil, Nat.zero_add, Nat.reduceLeDiff,
          Nat.reduceSub, Nat.reduceAdd, Nat.le_refl, Nat.sub_self, List.drop_zero]
  · intro hn
    split
    · rfl
    · next hle =>
      have hm : ¬ ai.format.channelLayout < 2 ^ 32 := by
        intro hm
        exact hn ⟨hm, by omega⟩
      unfold createFormat
      rw [if_pos (by omega)]

theorem wave64_ok {big : Bool} {ai : AudioInfo} (hc : Clip ai) (d : List Nat) (hd : d.length = total ai) :
    (ai.format.channelLayout < 2 ^ 32 → ∃ hd, header big .wave64 ai = some hd ∧ IsWave64 ai (hd ++ d) d) ∧
    (¬(ai.format.channelLayout < 2 ^ 32) → header big .wave64 ai = none) := by
  obtain ⟨hs, hlt⟩ := dataSize_eq hc
  show (_ → ∃ hd, createWave64 _ _ _ _ _ _ = some hd ∧ _) ∧ (_ → createWave64 _ _ _ _ _ _ = none)
  unfold createWave64
  simp only [hs]
  constructor
  · intro hm
    cases hcf : createFormat big (ai.format.sampleType == 1) ai.format.bitsPerSample ai.sampleRate ai.format.channelLayout with
    | none =>
      unfold createFormat at hcf
      rw [if_neg (by omega)] at hcf
      cases hcf
    | some wfx =>
      have hl := createFormat_length hcf
      have l1 : riffUuid.length = 16 := rfl
      have l2 : waveUuid.length = 16 := rfl
      have l3 : fmtUuid.length = 16 := rfl
      have l4 : dataUuid.length = 16 := rfl
      refine ⟨_, rfl, ?_⟩
      simp only [List.append_assoc]
      constructor
      · rw [bytesAt_head _ _ _ l1]
        decide +kernel
      · simp only [leAt_skip, leAt_head, field_length, l1, l2, l3, l4, Nat.zero_add, Nat.reduceLeDiff,
          Nat.reduceSub, Nat.reduceAdd, Nat.le_refl, Nat.sub_self, List.length_append, hl, hd]
        omega
      · simp only [bytesAt_skip, field_length, l1, Nat.zero_add, Nat.reduceLeDiff,
          Nat.reduceSub, Nat.reduceAdd, Nat.le_refl, Nat.sub_self]
        rw [bytesAt_head _ _ _ l2]
        decide +kernel
      · simp only [bytesAt_skip, field_length, l1, l2, Nat.zero_add, Nat.reduceLeDiff,
          Nat.reduceSub, Nat.reduceAdd, Nat.le_refl, Nat.sub_self]
        rw [bytesAt_head _ _ _ l3]
        decide +kernel
      · simp only [leAt_skip, leAt_head, field_length, l1, l2, l3, Nat.zero_add, Nat.reduceLeDiff,
          Nat.reduceSub, Nat.reduceAdd, Nat.le_refl, Nat.sub_self]
        rfl
      · have := format_ok hc hcf (riffUuid ++ field big 8 (128 + (total ai : Int)) ++ waveUuid ++ fmtUuid ++
          field big 8 (40 + 16 + 8)) (dataUuid ++ (field big 8 ((total ai : Int) + 16 + 8) ++ d)) 64
          (by simp [field_length, l1, l2, l3])
        simpa only [List.append_assoc] using this
      · simp only [bytesAt_skip, field_length, hl, l1, l2, l3, Nat.zero_add, Nat.reduceLeDiff,
          Nat.reduceSub, Nat.reduceAdd, Nat.le_refl, Nat.sub_self]
        rw [bytesAt_head _ _ _ l4]
        decide +kernel
      · simp only [leAt_skip, leAt_head, field_length, hl, l1, l2, l3, l4, Nat.zero_add, Nat.reduceLeDiff,
          Nat.reduceSub, Nat.reduceAdd, Nat.le_refl, Nat.sub_self, hd]
        omega
      · simp only [drop_skip, field_length, hl, l1, l2, l3, l4, Nat.reduceLeDiff,
          Nat.reduceSub, Nat.le_refl, Nat.sub_self, List.drop_zero]
  · intro hm
    unfold createFormat
    rw [if_pos (by omega)]

end VS.Wave
