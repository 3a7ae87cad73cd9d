import Verif.Resample.LemmasBank
import Verif.Audio.PropsShuffle

/-!
# Arguments
-/

namespace VS.Resample
open VS VS.Audio VS.Gain

theorem sat_eq (r : Int) : int64ToIntS r = max INT_MIN (min r INT_MAX) := by
  unfold int64ToIntS INT_MAX INT_MIN
  split
  · omega
  · split <;> omega

theorem parseChannels_cases : ∀ (cs : List Int) (l : Nat),
    (∃ m, parseChannels cs l = .err m ∧ ¬ (cs.Nodup ∧ (∀ c ∈ cs, 0 ≤ c ∧ c < 64) ∧ ∀ c ∈ cs, l.testBit c.toNat = false)) ∨
    (∃ l', parseChannels cs l = .ok l' ∧ cs.Nodup ∧ (∀ c ∈ cs, 0 ≤ c ∧ c < 64) ∧
      ∀ j : Nat, l'.testBit j = true ↔ l.testBit j = true ∨ (j : Int) ∈ cs)
  | [], l => Or.inr ⟨l, rfl, by simp, by simp, by simp⟩
  | c :: rest, l => by
    rw [parseChannels]
    by_cases h1 : c < 0 ∨ c ≥ 64
    · rw [if_pos h1]
      refine Or.inl ⟨_, rfl, ?_⟩
      rintro ⟨-, h, -⟩
      have := h c (by simp)
      omega
    rw [if_neg h1]
    cases h2 : l.testBit c.toNat with
    | true =>
      rw [if_pos rfl]
      refine Or.inl ⟨_, rfl, ?_⟩
      rintro ⟨-, -, h⟩
      have := h c (by simp)
      rw [h2] at this
      cases this
    | false =>
      rw [if_neg (by simp)]
      have hbit : ∀ j : Nat, (l ||| (1 <<< c.toNat)).testBit j = true ↔ l.testBit j = true ∨ (j : Int) = c := by
        intro j
        rw [Nat.testBit_or, Nat.one_shiftLeft, Nat.testBit_two_pow]
        simp only [Bool.or_eq_true, decide_eq_true_eq]
        constructor
        · rintro (h | h)
          · exact Or.inl h
          · right; omega
        · rintro (h | h)
          · exact Or.inl h
          · right; omega
      rcases parseChannels_cases rest (l ||| (1 <<< c.toNat)) with ⟨m, e, hn⟩ | ⟨l', e, n, hr, hb⟩
      · refine Or.inl ⟨m, e, ?_⟩
        rintro ⟨k1, k2, k3⟩
        apply hn
        rw [List.nodup_cons] at k1
        refine ⟨k1.2, fun d hd => k2 d (by simp [hd]), ?_⟩
        intro d hd
        cases ht : (l ||| (1 <<< c.toNat)).testBit d.toNat with
        | false => rfl
        | true =>
          exfalso
          rcases (hbit _).1 ht with h | h
          · rw [k3 d (by simp [hd])] at h; cases h
          · have := k2 d (by simp [hd])
            have : d = c := by omega
            subst this
            exact k1.1 hd
      · by_cases hc : c ∈ rest
        · -- the second occurrence is refused
          exfalso
          rcases parseChannels_dup rest (l ||| (1 <<< c.toNat)) c hc (by rw [hbit]; right; omega) with ⟨m, e'⟩
          rw [e] at e'
          cases e'
        · refine Or.inr ⟨l', e, by simp [hc, n], ?_, ?_⟩
          · intro d hd
            rw [List.mem_cons] at hd
            rcases hd with hd | hd
            · subst hd; omega
            · exact hr d hd
          · intro j
            rw [hb, hbit, List.mem_cons, or_assoc]
where
  parseChannels_dup : ∀ (cs : List Int) (l : Nat) (c : Int), c ∈ cs → l.testBit c.toNat = true → ∃ m, parseChannels cs l = .err m
    | [], _, _, h, _ => by cases h
    | d :: rest, l, c, h, hb => by
      rw [parseChannels]
      by_cases h1 : d < 0 ∨ d ≥ 64
      · rw [if_pos h1]; exact ⟨_, rfl⟩
      rw [if_neg h1]
      by_cases h2 : l.testBit d.toNat = true
      · rw [if_pos h2]; exact ⟨_, rfl⟩
      rw [if_neg h2]
      rw [List.mem_cons] at h
      rcases h with h | h
      · subst h; exact absurd hb h2
      · exact parseChannels_dup rest _ c h (by rw [Nat.testBit_or, hb]; rfl)

theorem parseDither_cases (o : Option String) :
    (∃ m, parseDither o = .err m) ∨
    (∃ dt, parseDither o = .ok dt ∧ (o = none ∧ dt = .triangular ∨ o = some "triangular" ∧ dt = .triangular ∨
      o = some "rectangular" ∧ dt = .rectangular ∨ o = some "none" ∧ dt = .none)) := by
  cases o with
  | none => exact Or.inr ⟨_, rfl, Or.inl ⟨rfl, rfl⟩⟩
  | some s =>
    rw [parseDither]
    by_cases h1 : s = "none"
    · rw [if_pos h1]; exact Or.inr ⟨_, rfl, by simp [h1]⟩
    rw [if_neg h1]
    by_cases h2 : s = "rectangular"
    · rw [if_pos h2]; exact Or.inr ⟨_, rfl, by simp [h2]⟩
    rw [if_neg h2]
    by_cases h3 : s = "triangular"
    · rw [if_pos h3]; exact Or.inr ⟨_, rfl, by simp [h3]⟩
    rw [if_neg h3]
    exact Or.inl ⟨_, rfl⟩

theorem dither_ok {o : Option String} {dt : DitherType} (h : o = none ∧ dt = .triangular ∨ o = some "triangular" ∧ dt = .triangular ∨
      o = some "rectangular" ∧ dt = .rectangular ∨ o = some "none" ∧ dt = .none) : parseDither o = .ok dt := by
  rcases h with ⟨h, k⟩ | ⟨h, k⟩ | ⟨h, k⟩ | ⟨h, k⟩ <;> subst h <;> subst k <;> rfl

theorem channels_ok {cs : List Int} {l : Nat} (h : cs.Nodup ∧ (∀ c ∈ cs, 0 ≤ c ∧ c < 64) ∧ ∀ j : Nat, l.testBit j = true ↔ (j : Int) ∈ cs) :
    parseChannels cs 0 = .ok l := by
  rcases parseChannels_cases cs 0 with ⟨m, e, hn⟩ | ⟨l', e, n, hr, hb⟩
  · exact absurd ⟨h.1, h.2.1, by simp⟩ hn
  · rw [e]
    congr 1
    apply Nat.eq_of_testBit_eq
    intro j
    have := hb j
    simp only [Nat.zero_testBit, Bool.false_eq_true, false_or] at this
    rw [Bool.eq_iff_iff, this, h.2.2]

theorem chosen_parse {a : Args} {src : AudioInfo} {rate : Nat} {fmt : AudioFormat} {dt : DitherType} (h : Spec.Chosen a src rate fmt dt) :
    parseArgs a src = .ok ((rate : Int), fmt.channelLayout, fmt.sampleType, fmt.bitsPerSample, dt) := by
  have e1 : argRate a src = (rate : Int) := by
    rw [h.rate_eq]
    unfold argRate
    cases a.samplerate with
    | none => rfl
    | some r => exact sat_eq r
  have e2 : argLayout a src = .ok fmt.channelLayout := by
    unfold argLayout
    by_cases hc : a.channels = []
    · rw [hc, if_neg (by simp), h.same_channels hc]
    · rw [if_pos (List.length_pos_iff.2 hc), channels_ok (h.channels hc)]
  have e3 : argType a src = fmt.sampleType := by
    rw [h.type]
    unfold argType
    cases a.sampletype with
    | none => rfl
    | some t => by_cases ht : t = 0 <;> simp [ht]
  have e4 : argBits a src fmt.sampleType = fmt.bitsPerSample := by
    rw [h.bits]
    unfold argBits
    cases a.bits with
    | none => rfl
    | some b => exact sat_eq b
  unfold parseArgs
  rw [e1, if_neg (by have := h.rate_pos; omega), e2]
  simp only [Res.bind_ok]
  rw [e3, e4, dither_ok h.dither]
  rfl

theorem chosen_query {a : Args} {src : AudioInfo} {rate : Nat} {fmt : AudioFormat} {dt : DitherType} (h : Spec.Chosen a src rate fmt dt) :
    queryAudioFormat fmt.sampleType fmt.bitsPerSample fmt.channelLayout = some fmt := by
  have hv : isValidFormatArgs fmt.sampleType fmt.bitsPerSample fmt.channelLayout = true := by
    unfold isValidFormatArgs
    have h1 := h.legal_type
    have h2 := h.legal_bits
    rw [if_neg (by omega), if_neg (by omega), if_neg (by omega), if_neg h.legal_layout]
  unfold queryAudioFormat
  rw [if_neg (by simp [hv])]
  have hb := h.bytes
  have hc := h.count
  have h2 := h.legal_bits
  cases fmt
  simp only at *
  congr 2
  · rw [hb]
    split <;> split <;> omega
  · exact hc.symm

theorem chosen_valid {a : Args} {src : AudioInfo} {rate : Nat} {fmt : AudioFormat} {dt : DitherType} (h : Spec.Chosen a src rate fmt dt)
    (n m : Int) (hn : 1 ≤ n) : isValidAudioInfo ⟨fmt, rate, n, m⟩ = true := by
  have h1 := h.legal_type
  have h2 := h.legal_bits
  have h3 := h.rate_pos
  have hv : isValidFormatArgs fmt.sampleType fmt.bitsPerSample fmt.channelLayout = true := by
    unfold isValidFormatArgs
    rw [if_neg (by omega), if_neg (by omega), if_neg (by omega), if_neg h.legal_layout]
  have hf : isValidAudioFormat fmt = true := by
    unfold isValidAudioFormat
    rw [if_neg (by simp [hv]), if_neg (by simp [h.count])]
    have hb := h.bytes
    by_cases h16 : fmt.bitsPerSample = 16
    · rw [if_pos h16] at hb
      rw [if_neg (by omega), if_neg (by omega)]
    · rw [if_neg h16] at hb
      rw [if_neg (by omega), if_neg (by omega)]
  unfold isValidAudioInfo
  rw [if_neg (by simp [hf])]
  simp only
  rw [if_neg (by omega)]

theorem chosen_int {a : Args} {src : AudioInfo} {rate : Nat} {fmt : AudioFormat} {dt : DitherType} (h : Spec.Chosen a src rate fmt dt) :
    IntFormat fmt := ⟨h.legal_bits, h.bytes⟩

/-- Every refusal is an error. -/
theorem not_chosen (a : Args) (src : AudioInfo) (h : ∀ rate fmt dt, ¬ Spec.Chosen a src rate fmt dt) :
    (∃ m, parseArgs a src = .err m) ∨ ∃ r, parseArgs a src = .ok r ∧ queryAudioFormat r.2.2.1 r.2.2.2.1 r.2.1 = none := by
  unfold parseArgs
  generalize hR : argRate a src = R
  by_cases h1 : R < 1
  · rw [if_pos h1]; exact Or.inl ⟨_, rfl⟩
  rw [if_neg h1]
  have hlay : (∃ m, argLayout a src = .err m) ∨
      ∃ l, argLayout a src = .ok l ∧
        (a.channels ≠ [] → a.channels.Nodup ∧ (∀ c ∈ a.channels, 0 ≤ c ∧ c < 64) ∧ ∀ j : Nat, l.testBit j = true ↔ (j : Int) ∈ a.channels) ∧
        (a.channels = [] → l = src.format.channelLayout) := by
    unfold argLayout
    by_cases hc : a.channels = []
    · rw [hc, if_neg (by simp)]
      exact Or.inr ⟨_, rfl, fun h => absurd rfl h, fun _ => rfl⟩
    · rw [if_pos (List.length_pos_iff.2 hc)]
      rcases parseChannels_cases a.channels 0 with ⟨m, e, -⟩ | ⟨l', e, n, hr, hb⟩
      · exact Or.inl ⟨m, e⟩
      · exact Or.inr ⟨l', e, fun _ => ⟨n, hr, by simpa using hb⟩, fun h => absurd h hc⟩
  rcases hlay with ⟨m, e⟩ | ⟨l, e, k1, k2⟩
  · rw [e]; exact Or.inl ⟨m, rfl⟩
  rw [e]
  simp only [Res.bind_ok]
  rcases parseDither_cases a.dither with ⟨m, e'⟩ | ⟨dt, e', k3⟩
  · rw [e']; exact Or.inl ⟨m, rfl⟩
  rw [e']
  simp only [Res.bind_ok]
  refine Or.inr ⟨_, rfl, ?_⟩
  simp only
  generalize hS : argType a src = S
  generalize hB : argBits a src S = B
  unfold queryAudioFormat
  by_cases hv : isValidFormatArgs S B l = true
  · exfalso
    have hv' := hv
    unfold isValidFormatArgs at hv
    split at hv
    · cases hv
    split at hv
    · cases hv
    split at hv
    · cases hv
    split at hv
    · cases hv
    rename_i v1 v2 v3 v4
    apply h R.toNat ⟨S, B, if B = 16 then 2 else 4, popcount l, l⟩ dt
    refine ⟨by omega, ?_, k1, k2, ?_, ?_, k3, ⟨by simp only; omega, by simp only; omega⟩, by simp only; omega, v4, rfl, rfl⟩
    · rw [Int.toNat_of_nonneg (by omega), ← hR]
      unfold argRate
      cases a.samplerate with
      | none => rfl
      | some r => exact sat_eq r
    · simp only
      rw [← hS]
      unfold argType
      cases a.sampletype with
      | none => rfl
      | some t => by_cases ht : t = 0 <;> simp [ht]
    · simp only
      rw [← hB]
      unfold argBits
      cases a.bits with
      | none => rfl
      | some b => exact sat_eq b
  · rw [if_pos (by simpa using hv)]

theorem resolve_dithered (asked : DitherType) (working fmt : AudioFormat) : Spec.Dithered working fmt asked (resolveDither asked working fmt) := by
  unfold Spec.Dithered resolveDither
  constructor
  · rintro ⟨h1, h2⟩
    rw [if_neg (by omega)]
    by_cases h3 : working.sampleType = 1
    · rw [if_pos h3]
    · rw [if_neg h3, if_pos (by omega)]
  · intro h
    by_cases h1 : fmt.sampleType ≠ 0
    · rw [if_pos h1]
    · rw [if_neg h1, if_neg (by omega), if_neg (by omega)]

end VS.Resample
