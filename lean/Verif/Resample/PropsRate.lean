import Verif.Resample.PropsFormat

/-!
# C95: AudioResample with a change of the rate or of the channels
-/

namespace VS.Resample

set_option maxRecDepth 10000

open VS VS.Audio VS.Gain

namespace Spec

/-- Whether mixing weights are normalized: as asked for, by default for integer output. -/
def normalise (a : Args) (fmt : AudioFormat) : Bool := match a.normalize with
  | some v => decide (v ≠ 0)
  | none => decide (fmt.sampleType = 0)

/-- The mixing weights, if the channels change. -/
def weights (F : RFloats) (a : Args) (src fmt : AudioFormat) : Option (Nat → Nat → Int) :=
  if fmt.channelLayout = src.channelLayout then none else some (mixWeights F src.channelLayout fmt.channelLayout (normalise a fmt))

/-- Output channel `c` takes no part in the mix: nothing is mixed into it. -/
def Silent (F : RFloats) (a : Args) (src fmt : AudioFormat) (c : Nat) : Prop :=
  fmt.channelLayout ≠ src.channelLayout ∧ ∀ i, i < 64 → src.channelLayout.testBit i = true →
    mixMatrix F src.channelLayout fmt.channelLayout (normalise a fmt) ((layoutChannels fmt.channelLayout).getD c 0) i = 0

/-- The output before it is converted to the output format: sources made float, mixed, then resampled. -/
def working (F : RFloats) (a : Args) (src fmt : AudioFormat) (ratio : Option (Nat × Nat × Nat)) (N : Nat) (sig : Signal Int) (c m : Nat) : Int :=
  resampled F ratio (mixed F (weights F a src fmt) src.numChannels (source F src N sig) c) m

/-- The rate ratio in use. -/
def RatioOf (F : RFloats) (inRate outRate : Nat) (ratio : Option (Nat × Nat × Nat)) : Prop :=
  (inRate = outRate ∧ ratio = none) ∨ (inRate ≠ outRate ∧ ∃ p q half, ratio = some (p, q, half) ∧ Ratio F inRate outRate p q half)

/-- The length of the output. -/
def length (inRate outRate N : Nat) : Nat := if inRate = outRate then N else outCount inRate outRate N

/-- The ratios that are surely accepted: at most 64 to 1, and not too many phases. -/
def Practical (inRate outRate : Nat) : Prop :=
  inRate ≤ 64 * outRate ∧
    64 * max (inRate / Nat.gcd inRate outRate) (outRate / Nat.gcd inRate outRate) + 2 * (outRate / Nat.gcd inRate outRate) ≤ 2 ^ 22

end Spec

/-- The data of the node. -/
def dataOf (F : RFloats) (a : Args) (ai : AudioInfo) (rate : Nat) (fmt : AudioFormat) (asked : DitherType) (bank : Option Bank) (M : Nat) : Data where
  ai := { format := fmt, sampleRate := rate, numSamples := M, numFrames := ai.numFrames }
  src := ai.format
  srcNumFrames := ai.numFrames
  bank := bank
  weights := if fmt.channelLayout ≠ ai.format.channelLayout then some (mixWeights F ai.format.channelLayout fmt.channelLayout (Spec.normalise a fmt)) else none
  silent := if fmt.channelLayout ≠ ai.format.channelLayout then silentRow F ai.format.channelLayout fmt.channelLayout (Spec.normalise a fmt) else fun _ => false
  dither := resolveDither asked floatFormat fmt
  overflowError := decide (a.overflowError.getD 0 ≠ 0)

theorem create_float (F : RFloats) (clip : AClip Int) (a : Args) (fmt : AudioFormat) (rate : Nat) (asked : DitherType)
    (hch : Spec.Chosen a clip.ai rate fmt asked)
    (hdiff : (rate : Int) ≠ clip.ai.sampleRate ∨ fmt.channelLayout ≠ clip.ai.format.channelLayout) :
    audioResampleCreate F clip a = (if (rate : Int) ≠ clip.ai.sampleRate then
        (buildBank F clip.ai.sampleRate rate).bind fun b => (outSamples b clip.ai.numSamples).bind fun ns => .ok (some b, ns)
      else .ok (none, clip.ai.numSamples)).bind fun r =>
        createAudioFilter (floatFilter F { dataOf F a clip.ai rate fmt asked r.1 0 with
          ai := { format := fmt, sampleRate := rate, numSamples := r.2, numFrames := clip.ai.numFrames } }) [clip] := by
  unfold audioResampleCreate
  rw [chosen_parse hch]
  simp only [Res.bind_ok]
  rw [chosen_query hch]
  simp only
  have h1 : (!decide ((rate : Int) ≠ clip.ai.sampleRate) && !decide (fmt.channelLayout ≠ clip.ai.format.channelLayout) &&
      !decide (fmt.sampleType ≠ clip.ai.format.sampleType ∨ fmt.bitsPerSample ≠ clip.ai.format.bitsPerSample)) = false := by
    rcases hdiff with h | h <;> simp [h]
  have h2 : (decide ((rate : Int) ≠ clip.ai.sampleRate) || decide (fmt.channelLayout ≠ clip.ai.format.channelLayout)) = true := by
    rcases hdiff with h | h <;> simp [h]
  rw [h1, h2, if_neg (by simp), if_pos rfl]
  by_cases hr : (rate : Int) ≠ clip.ai.sampleRate
  · rw [if_pos hr]
    rw [decide_eq_true hr, if_pos rfl]
    cases buildBank F clip.ai.sampleRate rate with
    | err m => rfl
    | fatal m => rfl
    | ub => rfl
    | ok b =>
      simp only [Res.bind_ok]
      show (outSamples b clip.ai.numSamples >>= _) = Res.bind (Res.bind (outSamples b clip.ai.numSamples) _) _
      cases outSamples b clip.ai.numSamples with
      | err m => rfl
      | fatal m => rfl
      | ub => rfl
      | ok ns =>
        simp only [Res.bind_ok]
        unfold dataOf Spec.normalise
        by_cases hl : fmt.channelLayout ≠ clip.ai.format.channelLayout
        · simp only [decide_eq_true hl, if_pos hl]; rfl
        · simp only [decide_eq_false hl, if_neg hl]; rfl
  · rw [if_neg hr]
    rw [decide_eq_false hr, if_neg (by simp)]
    unfold dataOf Spec.normalise
    by_cases hl : fmt.channelLayout ≠ clip.ai.format.channelLayout
    · simp only [decide_eq_true hl, if_pos hl]; rfl
    · simp only [decide_eq_false hl, if_neg hl]; rfl

theorem carries_pos {clip : AClip Int} {N : Nat} {sig : Signal Int} (h : clip.Carries N sig) : 1 ≤ N := by
  have h1 := h.info
  have h2 := h.count
  unfold isValidAudioInfo at h1
  split at h1
  · cases h1
  split at h1
  · cases h1
  omega

theorem float_delivers (F : RFloats) (clip : AClip Int) (N M : Nat) (sig : Signal Int) (hcar : clip.Carries N sig) (a : Args)
    (fmt : AudioFormat) (rate : Nat) (asked : DitherType) (hch : Spec.Chosen a clip.ai rate fmt asked)
    (hst : ∀ c p, c < clip.ai.format.numChannels → p < N → Spec.Stored clip.ai.format (sig c p))
    (ratio : Option (Nat × Nat × Nat)) (hr : RatioOpt N M ratio) (hM1 : 1 ≤ M) (hM : (M : Int) ≤ MAX_SAMPLES)
    (hnan : fmt.sampleType = 0 → ∀ c m, c < fmt.numChannels → m < M →
      Spec.value floatFormat (Spec.working F a clip.ai.format fmt ratio N sig c m) ≠ .nan) :
    ∃ (out : AClip Int) (sig' : Signal Int) (cl : Nat → Nat → Bool) (used : DitherType),
      createAudioFilter (floatFilter F (dataOf F a clip.ai rate fmt asked (bankOpt ratio) M)) [clip] = .ok out ∧
      out.ai = ⟨fmt, rate, M, frameCount M⟩ ∧ Spec.Delivers out M sig' cl (decide (a.overflowError.getD 0 ≠ 0)) ∧
      Spec.Dithered floatFormat fmt asked used ∧
      ∀ c m, c < fmt.numChannels → m < M →
        (Spec.Silent F a clip.ai.format fmt c → sig' c m = 0 ∧ cl c m = false) ∧
        (¬ Spec.Silent F a clip.ai.format fmt c → Spec.DitherRange used (ditherValue used m c) ∧
          Spec.Converted F floatFormat fmt (ditherValue used m c) (Spec.working F a clip.ai.format fmt ratio N sig c m) (sig' c m) (cl c m)) := by
  have hf := valid_bytes hcar.info
  have hfmt := chosen_int hch
  have hty : fmt.sampleType = 0 ∨ fmt.sampleType = 1 := by have := hch.legal_type; omega
  generalize hd : dataOf F a clip.ai rate fmt asked (bankOpt ratio) M = d
  have d1 : d.ai = { format := fmt, sampleRate := rate, numSamples := M, numFrames := clip.ai.numFrames } := by rw [← hd]; rfl
  have d2 : d.src = clip.ai.format := by rw [← hd]; rfl
  have d3 : d.dither = resolveDither asked floatFormat fmt := by rw [← hd]; rfl
  have d4 : d.weights = Spec.weights F a clip.ai.format fmt := by
    rw [← hd]; unfold dataOf Spec.weights
    by_cases h : fmt.channelLayout = clip.ai.format.channelLayout <;> simp [h]
  have d5 : ∀ c, d.silent c = true ↔ Spec.Silent F a clip.ai.format fmt c := by
    intro c
    rw [← hd]
    unfold dataOf Spec.Silent
    by_cases h : fmt.channelLayout = clip.ai.format.channelLayout
    · simp [h]
    · simp only [ne_eq, h, not_false_eq_true, if_true, true_and]
      unfold silentRow
      simp only [List.all_eq_true, decide_eq_true_eq, layoutChannels_mem]
      constructor
      · intro k i hi hb; exact k i ⟨hi, hb⟩
      · intro k i hi; exact k i hi.1 hi.2
  have d6 : d.overflowError = decide (a.overflowError.getD 0 ≠ 0) := by rw [← hd]; rfl
  have hwork : ∀ c m, work F d N sig ratio c m = Spec.working F a clip.ai.format fmt ratio N sig c m := by
    intro c m
    unfold work Spec.working
    rw [d4, d2]
  have hstored : ∀ x, Spec.Stored floatFormat x := fun _ => Or.inl rfl
  have hconv := fun c m (hc : c < fmt.numChannels) (hm : m < M) =>
    convert_outcome F (working := floatFormat) ⟨by decide, by decide⟩ hfmt hty (resolveDither asked floatFormat fmt)
      ((m : Nat) : Int) c (Spec.working F a clip.ai.format fmt ratio N sig c m) (hstored _) (fun h => hnan h c m hc hm)
  let res : Nat → Nat → Int × Bool := fun c m => if d.silent c then (0, false) else
    outcome (convertSample F floatFormat fmt (resolveDither asked floatFormat fmt) ((m : Nat) : Int) c (Spec.working F a clip.ai.format fmt ratio N sig c m))
  have hready := float_ready F d (N := N) (M := M) (by rw [d2]; exact hf) sig (by rw [d2]; exact hst) hcar.range (carries_pos hcar)
    (by rw [d1]) hM (by rw [← hd]; exact hcar.frames) ratio (by rw [← hd]; rfl) hr
    (by
      intro hw
      rw [d4] at hw
      unfold Spec.weights at hw
      split at hw
      · rename_i h
        rw [d2, d1, valid_popcount hcar.info, hch.count, h]
      · cases hw)
    (fun c m => (res c m).1) (fun c m => (res c m).2)
    (by
      intro c m hc hm hs
      rw [d1] at hc ⊢
      rw [hwork, d3]
      show _ = Res.ok ((res c m).1, (res c m).2)
      have : res c m = outcome (convertSample F floatFormat fmt (resolveDither asked floatFormat fmt) ((m : Nat) : Int) c (Spec.working F a clip.ai.format fmt ratio N sig c m)) := by
        show (if _ then _ else _) = _
        rw [if_neg (by simp [hs])]
      rw [this]
      exact (hconv c m hc hm).1)
    (by
      intro c m hs
      have : res c m = (0, false) := by
        show (if _ then _ else _) = _
        rw [if_pos hs]
      rw [this]
      exact ⟨rfl, rfl⟩)
  rw [d2] at hready
  have hvalid : isValidAudioInfo (floatFilter F d).ai = true := by
    show isValidAudioInfo d.ai = true
    rw [d1]
    exact chosen_valid hch M clip.ai.numFrames (by omega)
  obtain ⟨out, o1, o2, o3⟩ := deliver (floatFilter F d) clip N M sig hcar hvalid (by show d.ai.numSamples = _; rw [d1]) hM d.overflowError
    (fun c m => (res c m).1) (fun c m => (res c m).2) hready
  refine ⟨out, _, _, resolveDither asked floatFormat fmt, o1, ?_, by rw [← d6]; exact o3, resolve_dithered asked _ _, ?_⟩
  · rw [o2]
    show { d.ai with numFrames := (frameCount M : Int) } = _
    rw [d1]
  · intro c m hc hm
    constructor
    · intro hs
      have : res c m = (0, false) := by
        show (if _ then _ else _) = _
        rw [if_pos ((d5 c).2 hs)]
      show (res c m).1 = 0 ∧ (res c m).2 = false
      rw [this]
      exact ⟨rfl, rfl⟩
    · intro hs
      refine ⟨dither_range _ _ _, ?_⟩
      have : res c m = outcome (convertSample F floatFormat fmt (resolveDither asked floatFormat fmt) ((m : Nat) : Int) c (Spec.working F a clip.ai.format fmt ratio N sig c m)) := by
        show (if _ then _ else _) = _
        rw [if_neg (fun h => hs ((d5 c).1 h))]
      show Spec.Converted _ _ _ _ _ (res c m).1 (res c m).2
      rw [this]
      exact (hconv c m hc hm).2

/-- **C95 (resampling and mixing).**  If the rate or the channels change, and the ratio is a practical one: the output lasts as long
as the input, rounded up to whole samples; output sample `m` of a channel is the filter at input position `m·q/p` on the mixed
channels, with silence outside the clip, converted to the output format; channels that get nothing are silent.  This holds for
all frames, so nothing is read outside a frame and no number overflows. -/
theorem C95_resample (F : RFloats) (clip : AClip Int) (N : Nat) (sig : Signal Int) (hcar : clip.Carries N sig) (a : Args)
    (fmt : AudioFormat) (inRate rate : Nat) (asked : DitherType) (hch : Spec.Chosen a clip.ai rate fmt asked)
    (hin : clip.ai.sampleRate = inRate) (hdiff : rate ≠ inRate ∨ fmt.channelLayout ≠ clip.ai.format.channelLayout)
    (hprac : rate ≠ inRate → Spec.Practical inRate rate) (hlen : (Spec.length inRate rate N : Int) ≤ MAX_SAMPLES)
    (hst : ∀ c p, c < clip.ai.format.numChannels → p < N → Spec.Stored clip.ai.format (sig c p)) :
    ∃ ratio, Spec.RatioOf F inRate rate ratio ∧
    ((fmt.sampleType = 0 → ∀ c m, c < fmt.numChannels → m < Spec.length inRate rate N →
        Spec.value floatFormat (Spec.working F a clip.ai.format fmt ratio N sig c m) ≠ .nan) →
      ∃ (out : AClip Int) (sig' : Signal Int) (cl : Nat → Nat → Bool) (used : DitherType),
        audioResampleCreate F clip a = .ok out ∧ out.ai = ⟨fmt, rate, Spec.length inRate rate N, frameCount (Spec.length inRate rate N)⟩ ∧
        Spec.Delivers out (Spec.length inRate rate N) sig' cl (decide (a.overflowError.getD 0 ≠ 0)) ∧
        Spec.Dithered floatFormat fmt asked used ∧
        ∀ c m, c < fmt.numChannels → m < Spec.length inRate rate N →
          (Spec.Silent F a clip.ai.format fmt c → sig' c m = 0 ∧ cl c m = false) ∧
          (¬ Spec.Silent F a clip.ai.format fmt c → Spec.DitherRange used (ditherValue used m c) ∧
            Spec.Converted F floatFormat fmt (ditherValue used m c) (Spec.working F a clip.ai.format fmt ratio N sig c m) (sig' c m) (cl c m))) := by
  have hcr := create_float F clip a fmt rate asked hch (by
    rcases hdiff with h | h
    · left; rw [hin]; exact_mod_cast h
    · exact Or.inr h)
  by_cases hr : rate = inRate
  · have hl : Spec.length inRate rate N = N := by unfold Spec.length; rw [if_pos hr.symm]
    refine ⟨none, Or.inl ⟨hr.symm, rfl⟩, ?_⟩
    rw [hl]
    intro hnan
    obtain ⟨out, sig', cl, used, o1, o2⟩ := float_delivers F clip N N sig hcar a fmt rate asked hch hst none rfl (carries_pos hcar) hcar.range hnan
    refine ⟨out, sig', cl, used, ?_, o2⟩
    rw [hcr, if_neg (by rw [hin]; simp [hr])]
    show createAudioFilter _ _ = _
    rw [← o1]
    unfold dataOf
    rw [hcar.count]
    rfl
  · have hl : Spec.length inRate rate N = Spec.outCount inRate rate N := by unfold Spec.length; rw [if_neg (fun h => hr h.symm)]
    rw [hl] at hlen ⊢
    obtain ⟨p1, p2⟩ := hprac hr
    have hI : 0 < inRate := by
      have := (valid_args hcar.info).2.2.2.2
      omega
    have hO : 0 < rate := hch.rate_pos
    obtain ⟨half, hratio, hbank⟩ := bank_ok F inRate rate hI hO p1 p2
    obtain ⟨hg, hp, hq, eO, eI⟩ := reduced inRate rate hI hO
    have hout := outCount_eq inRate rate N _ _ _ hg hq eO eI
    have hp2 : rate / Nat.gcd inRate rate ≤ 65536 := by omega
    have hq2 : inRate / Nat.gcd inRate rate < 2 ^ 32 := by omega
    have hqp : inRate / Nat.gcd inRate rate ≤ 64 * (rate / Nat.gcd inRate rate) := by
      have : Nat.gcd inRate rate * (inRate / Nat.gcd inRate rate) ≤ Nat.gcd inRate rate * (64 * (rate / Nat.gcd inRate rate)) := by
        rw [← eI, Nat.mul_left_comm, ← eO]; exact p1
      exact Nat.le_of_mul_le_mul_left this hg
    obtain ⟨m1, m2, m3, -⟩ := out_ok N (rate / Nat.gcd inRate rate) (inRate / Nat.gcd inRate rate) half (carries_pos hcar) hcar.range hp hp2 hq hq2
    rw [← hout] at m1 m2 m3
    refine ⟨some (rate / Nat.gcd inRate rate, inRate / Nat.gcd inRate rate, half), Or.inr ⟨fun h => hr h.symm, _, _, _, rfl, hratio⟩, ?_⟩
    intro hnan
    obtain ⟨out, sig', cl, used, o1, o2⟩ := float_delivers F clip N _ sig hcar a fmt rate asked hch hst _
      (show RatioOpt N (Spec.outCount inRate rate N) (some (rate / Nat.gcd inRate rate, inRate / Nat.gcd inRate rate, half)) from
        ⟨hp, hp2, hq2, hqp, hratio.half_le, by have := hratio.half_ge; omega, m2⟩) m1 hlen hnan
    refine ⟨out, sig', cl, used, ?_, o2⟩
    rw [hcr, if_pos (by rw [hin]; exact_mod_cast hr), hin, hbank]
    show Res.bind (Res.bind (outSamples _ _) _) _ = _
    rw [hcar.count, m3 hlen]
    show createAudioFilter _ _ = _
    rw [← o1]
    rfl

/-- **C95 (refused ratios).**  More than 64 to 1, up to 2^23 to 1: the filter would be too long, and the call says so. -/
theorem C95_too_long (F : RFloats) (clip : AClip Int) (a : Args) (fmt : AudioFormat) (inRate rate : Nat) (asked : DitherType)
    (hch : Spec.Chosen a clip.ai rate fmt asked) (hin : clip.ai.sampleRate = inRate) (h31 : inRate < 2 ^ 31) (h1 : 64 * rate < inRate)
    (h2 : inRate ≤ 2 ^ 23 * rate) : audioResampleCreate F clip a =
      .err "AudioResample: the sample rate ratio requires an impractically long filter, convert in several steps instead" := by
  have hne : (rate : Int) ≠ clip.ai.sampleRate := by rw [hin]; omega
  rw [create_float F clip a fmt rate asked hch (Or.inl hne), if_pos hne, hin,
    bank_long F inRate rate (by omega) hch.rate_pos h31 h1 h2]
  rfl

/-- **C95 (length).**  The output is too long for a clip: refused. -/
theorem C95_length (F : RFloats) (clip : AClip Int) (N : Nat) (sig : Signal Int) (hcar : clip.Carries N sig) (a : Args)
    (fmt : AudioFormat) (inRate rate : Nat) (asked : DitherType) (hch : Spec.Chosen a clip.ai rate fmt asked)
    (hin : clip.ai.sampleRate = inRate) (hne : rate ≠ inRate) (hprac : Spec.Practical inRate rate)
    (hlen : (Spec.outCount inRate rate N : Int) > MAX_SAMPLES) :
    audioResampleCreate F clip a = .err "AudioResample: the resampled clip length is out of range" := by
  have hne' : (rate : Int) ≠ clip.ai.sampleRate := by rw [hin]; exact_mod_cast hne
  obtain ⟨p1, p2⟩ := hprac
  have hI : 0 < inRate := by
    have := (valid_args hcar.info).2.2.2.2
    omega
  have hO : 0 < rate := hch.rate_pos
  obtain ⟨half, hratio, hbank⟩ := bank_ok F inRate rate hI hO p1 p2
  obtain ⟨hg, hp, hq, eO, eI⟩ := reduced inRate rate hI hO
  have hout := outCount_eq inRate rate N _ _ _ hg hq eO eI
  obtain ⟨-, -, -, m4⟩ := out_ok N (rate / Nat.gcd inRate rate) (inRate / Nat.gcd inRate rate) half (carries_pos hcar) hcar.range hp (by omega) hq (by omega)
  rw [← hout] at m4
  rw [create_float F clip a fmt rate asked hch (Or.inl hne'), if_pos hne', hin, hbank]
  show Res.bind (Res.bind (outSamples _ _) _) _ = _
  rw [hcar.count, m4 hlen]
  rfl

/-! ## Examples -/

/-- The conditions of `C95_resample`: 44100 to 48000 and stereo to mono. -/
example : Spec.Chosen { samplerate := some 48000, channels := [2] } ⟨stereo24, 44100, 10000, 4⟩ 48000 ⟨0, 24, 4, 1, 4⟩ .triangular ∧
    Spec.Practical 44100 48000 ∧ Spec.length 44100 48000 10000 = 10885 ∧ (Spec.length 44100 48000 10000 : Int) ≤ MAX_SAMPLES ∧
    (AClip.ofSignal stereo24 44100 10000 (fun c p => if c = 0 then 256 * p else 2147483392)).Carries 10000
      (fun c p => if c = 0 then 256 * p else 2147483392) := by
  refine ⟨⟨by decide, by decide, fun _ => ⟨by decide, by decide, ?_⟩, by decide, by decide, by decide, by decide, by decide, by decide, by decide,
    by decide, by decide⟩, ⟨by decide, by decide⟩, by decide, by decide, AClip.ofSignal_carries _ (by decide) (by decide)⟩
  intro j
  show Nat.testBit (2 ^ 2) j = true ↔ (j : Int) ∈ [(2 : Int)]
  rw [Nat.testBit_two_pow, decide_eq_true_eq, List.mem_singleton]
  omega

/-- The conditions of `C95_too_long` and of `C95_length`. -/
example : Spec.Chosen { samplerate := some 1000 } ⟨mono16, 192000, 10, 1⟩ 1000 mono16 .triangular ∧ 64 * 1000 < 192000 ∧
    Spec.Practical 1000 64000 ∧ (Spec.outCount 1000 64000 (2 ^ 42) : Int) > MAX_SAMPLES :=
  ⟨⟨by decide, by decide, fun h => absurd rfl h, by decide, by decide, by decide, by decide, by decide, by decide, by decide, by decide, by decide⟩,
    by decide, ⟨by decide, by decide⟩, by decide⟩

/-- Not every ratio is accepted or refused: from 2^26 to 1 on the length of the filter is no `int`, and the conversion of the `double` is
undefined, whatever the rounding. -/
theorem C95_any_ratio_refuted (F : RFloats) : ∃ (clip : AClip Int) (sig : Signal Int) (a : Args),
    clip.Carries 1 sig ∧ Spec.Chosen a clip.ai 1 mono16 .triangular ∧ audioResampleCreate F clip a = .ub := by
  refine ⟨AClip.ofSignal mono16 100000000 1 (fun _ _ => (0 : Int)), fun _ _ => 0, { samplerate := some 1 },
    AClip.ofSignal_carries _ (by decide) (by decide), ?_, ?_⟩
  · exact ⟨by decide, by decide, fun h => absurd rfl h, by decide, by decide, by decide, by decide, by decide, by decide, by decide, by decide, by decide⟩
  · have hch : Spec.Chosen { samplerate := some 1 } (AClip.ofSignal mono16 100000000 1 (fun _ _ => (0 : Int))).ai 1 mono16 .triangular :=
      ⟨by decide, by decide, fun h => absurd rfl h, by decide, by decide, by decide, by decide, by decide, by decide, by decide, by decide, by decide⟩
    have hin : (AClip.ofSignal mono16 100000000 1 (fun _ _ => (0 : Int))).ai.sampleRate = ((100000000 : Nat) : Int) := rfl
    have hne : ((1 : Nat) : Int) ≠ (AClip.ofSignal mono16 100000000 1 (fun _ _ => (0 : Int))).ai.sampleRate := by rw [hin]; decide
    rw [create_float F _ _ mono16 1 .triangular hch (Or.inl hne), if_pos hne, hin, bank_ub F 100000000 1 (by omega) (by omega) (by omega) (by omega)]
    rfl

end VS.Resample
