import Verif.Resample.LemmasArgs
import Verif.Gain.PropsGain

/-!
# C96: AudioResample as a conversion of the sample format
-/

namespace VS.Resample

set_option maxRecDepth 10000

open VS VS.Audio VS.Gain

/-- The converted sample and whether it was clipped; only used where the conversion succeeds. -/
def outcome (r : Res (Int × Bool)) : Int × Bool := match r with
  | .ok v => v
  | _ => (0, false)

theorem convert_outcome (F : RFloats) {working dst : AudioFormat} (hw : IntFormat working) (hd : IntFormat dst)
    (hdt : dst.sampleType = 0 ∨ dst.sampleType = 1) (dt : DitherType) (pos : Int) (c : Nat) (x : Int) (hx : Spec.Stored working x)
    (hnan : dst.sampleType = 0 → Spec.value working x ≠ .nan) :
    convertSample F working dst dt pos c x = .ok ((outcome (convertSample F working dst dt pos c x)).1, (outcome (convertSample F working dst dt pos c x)).2) ∧
      Spec.Converted F working dst (ditherValue dt pos c) x (outcome (convertSample F working dst dt pos c x)).1 (outcome (convertSample F working dst dt pos c x)).2 := by
  obtain ⟨out, clip, e, h⟩ := convert_ok F hw hd hdt dt pos c x hx hnan
  rw [e]
  exact ⟨rfl, h⟩

theorem format_ready (F : RFloats) (src : AudioFormat) (ai : AudioInfo) (dt : DitherType) (oe : Bool) {N : Nat} (sig : Signal Int)
    (hN : (N : Int) ≤ MAX_SAMPLES) (hch : src.numChannels = ai.format.numChannels) (v : Signal Int) (cl : Nat → Nat → Bool)
    (hv : ∀ c m, c < ai.format.numChannels → m < N → convertSample F src ai.format dt (m : Int) c (sig c m) = .ok (v c m, cl c m))
    (k : Nat) (hk : k < frameCount N) :
    ∃ rq, (formatFilter F src ai dt oe).initial k = .ok rq ∧ (∀ r ∈ rq, r.1 = 0 ∧ 0 ≤ r.2) ∧
      ∀ fetch : Nat → Int → Option (AFrame Int),
        (∀ k', (0, k') ∈ rq → ∃ g, fetch 0 k' = some g ∧ IsFrame src N sig (min k'.toNat (frameCount N - 1)) g) →
        ∃ ch, (formatFilter F src ai dt oe).ready k fetch = finish oe (k * 3072 : Nat) (min 3072 (N - k * 3072) : Nat) ai.format
            (ch, (List.range ai.format.numChannels).any fun c => (List.range (min 3072 (N - k * 3072))).any fun i => cl c (k * 3072 + i)) ∧
          ∀ c, c < ai.format.numChannels → ∀ i, i < min 3072 (N - k * 3072) → ch c i = some (v c (k * 3072 + i)) := by
  have hkN := lt_of_lt_frameCount hk
  have hN' := hN
  unfold MAX_SAMPLES SAMPLES INT_MAX at hN'
  refine ⟨[(0, (k : Int))], rfl, by simp, ?_⟩
  intro fetch hf
  obtain ⟨g, g1, g2⟩ := hf k (by simp)
  rw [show min ((k : Int).toNat) (frameCount N - 1) = k by simp; omega] at g2
  have hlen : g.len = (min 3072 (N - k * 3072) : Nat) := g2.len
  have hs : (k : Int) * SAMPLES = ((k * 3072 : Nat) : Int) := by unfold SAMPLES; push_cast; rfl
  show ∃ ch, (deref (fetch 0 k) >>= _) = _ ∧ _
  rw [g1]
  simp only [deref, Res.bind_ok]
  rw [newAudioFrame_ok (by omega)]
  simp only [Res.bind_ok]
  rw [hlen, hs, Int.toNat_natCast]
  generalize hL : min 3072 (N - k * 3072) = L at *
  obtain ⟨ch, o1, o2⟩ := outLoop_ok (fun c => convertPlane F src ai.format dt (readSample g c) L ((k * 3072 : Nat) : Int) c)
    (fun c => (List.range L).map fun i => v c (k * 3072 + i)) (fun c => (List.range L).any fun i => cl c (k * 3072 + i)) L
    (List.range ai.format.numChannels) ((fun _ _ => none), false) (by
      intro c hc
      rw [List.mem_range] at hc
      refine ⟨?_, by simp⟩
      apply convertPlane_ok F src ai.format dt _ L (k * 3072) c (fun i => sig c (k * 3072 + i))
      · intro i hi
        have := g2.samples c (by omega) i (by omega)
        rw [readSample, this]
      · omega
      · intro i hi
        exact hv c (k * 3072 + i) hc (by omega))
  refine ⟨ch, ?_, ?_⟩
  · refine Eq.trans (congrArg (fun r => r >>= _) o1) ?_
    simp only [Res.bind_ok, Bool.false_or]
  · intro c hc i hi
    rw [o2 c i hi, if_pos (List.mem_range.2 hc)]
    simp [hi]

theorem create_format (F : RFloats) (clip : AClip Int) (a : Args) (fmt : AudioFormat) (rate : Nat) (asked : DitherType)
    (hch : Spec.Chosen a clip.ai rate fmt asked) (hrate : (rate : Int) = clip.ai.sampleRate)
    (hlay : fmt.channelLayout = clip.ai.format.channelLayout)
    (hdiff : fmt.sampleType ≠ clip.ai.format.sampleType ∨ fmt.bitsPerSample ≠ clip.ai.format.bitsPerSample) :
    audioResampleCreate F clip a = createAudioFilter (formatFilter F clip.ai.format { clip.ai with format := fmt }
      (resolveDither asked clip.ai.format fmt) (decide (a.overflowError.getD 0 ≠ 0))) [clip] := by
  unfold audioResampleCreate
  rw [chosen_parse hch]
  simp only [Res.bind_ok]
  rw [chosen_query hch]
  simp only [hrate, hlay]
  rw [if_neg (by simp; omega), if_neg (by simp)]

/-- **C96 (conversion).**  Same rate and channels, another sample type or precision: every output sample is the converted input
sample, in its place; frames with clipped samples are delivered or, if asked for, refused with the interval in the message. -/
theorem C96_format (F : RFloats) (clip : AClip Int) (N : Nat) (sig : Signal Int) (hcar : clip.Carries N sig) (a : Args)
    (fmt : AudioFormat) (rate : Nat) (asked : DitherType) (hch : Spec.Chosen a clip.ai rate fmt asked)
    (hrate : (rate : Int) = clip.ai.sampleRate) (hlay : fmt.channelLayout = clip.ai.format.channelLayout)
    (hdiff : fmt.sampleType ≠ clip.ai.format.sampleType ∨ fmt.bitsPerSample ≠ clip.ai.format.bitsPerSample)
    (hst : ∀ c p, c < fmt.numChannels → p < N → Spec.Stored clip.ai.format (sig c p))
    (hnan : fmt.sampleType = 0 → ∀ c p, c < fmt.numChannels → p < N → Spec.value clip.ai.format (sig c p) ≠ .nan) :
    ∃ (out : AClip Int) (sig' : Signal Int) (cl : Nat → Nat → Bool) (used : DitherType),
      audioResampleCreate F clip a = .ok out ∧ out.ai = { clip.ai with format := fmt } ∧
      Spec.Delivers out N sig' cl (decide (a.overflowError.getD 0 ≠ 0)) ∧ Spec.Dithered clip.ai.format fmt asked used ∧
      ∀ c p, c < fmt.numChannels → p < N → Spec.DitherRange used (ditherValue used p c) ∧
        Spec.Converted F clip.ai.format fmt (ditherValue used p c) (sig c p) (sig' c p) (cl c p) := by
  have hf := valid_bytes hcar.info
  have hfmt := chosen_int hch
  have hty : fmt.sampleType = 0 ∨ fmt.sampleType = 1 := by have := hch.legal_type; omega
  have hnum : clip.ai.format.numChannels = fmt.numChannels := by rw [valid_popcount hcar.info, hch.count, hlay]
  have hcr := create_format F clip a fmt rate asked hch hrate hlay hdiff
  have hconv := fun c p hc hp => convert_outcome F hf hfmt hty (resolveDither asked clip.ai.format fmt) ((p : Nat) : Int) c (sig c p)
    (hst c p hc hp) (fun h => hnan h c p hc hp)
  have hpos : (1 : Int) ≤ N := by
    have h1 := hcar.info
    have h2 := hcar.count
    unfold isValidAudioInfo at h1
    split at h1
    · cases h1
    split at h1
    · cases h1
    omega
  have hvalid : isValidAudioInfo { clip.ai with format := fmt } = true := by
    have := chosen_valid hch clip.ai.numSamples clip.ai.numFrames (by rw [hcar.count]; exact hpos)
    rw [hrate] at this
    exact this
  obtain ⟨out, o1, o2, o3⟩ := deliver (formatFilter F clip.ai.format { clip.ai with format := fmt }
      (resolveDither asked clip.ai.format fmt) (decide (a.overflowError.getD 0 ≠ 0))) clip N N sig hcar hvalid hcar.count hcar.range
      (decide (a.overflowError.getD 0 ≠ 0)) _ _
      (format_ready F clip.ai.format { clip.ai with format := fmt } _ _ sig hcar.range hnum _ _ (fun c p hc hp => (hconv c p hc hp).1))
  refine ⟨out, _, _, resolveDither asked clip.ai.format fmt, hcr.trans o1, ?_, o3, resolve_dithered asked _ _, ?_⟩
  · rw [o2, ← hcar.frames]; rfl
  · intro c p hc hp
    exact ⟨dither_range _ _ _, (hconv c p hc hp).2⟩

/-- **C96 (nothing to do).**  If rate, channels, sample type and precision stay the same the result is the clip itself. -/
theorem C96_same (F : RFloats) (clip : AClip Int) (a : Args) (fmt : AudioFormat) (rate : Nat) (asked : DitherType)
    (hch : Spec.Chosen a clip.ai rate fmt asked) (hrate : (rate : Int) = clip.ai.sampleRate)
    (hlay : fmt.channelLayout = clip.ai.format.channelLayout) (ht : fmt.sampleType = clip.ai.format.sampleType)
    (hb : fmt.bitsPerSample = clip.ai.format.bitsPerSample) : audioResampleCreate F clip a = .ok clip := by
  unfold audioResampleCreate
  rw [chosen_parse hch]
  simp only [Res.bind_ok]
  rw [chosen_query hch]
  simp only [hrate, hlay, ht, hb]
  rw [if_pos (by simp)]

/-- **C96 (arguments).**  If the arguments ask for no legal output the call fails. -/
theorem C96_arguments (F : RFloats) (clip : AClip Int) (a : Args) (h : ∀ rate fmt asked, ¬ Spec.Chosen a clip.ai rate fmt asked) :
    ∃ m, audioResampleCreate F clip a = .err m := by
  unfold audioResampleCreate
  rcases not_chosen a clip.ai h with ⟨m, e⟩ | ⟨⟨r1, r2, r3, r4, r5⟩, e, hq⟩
  · rw [e]; exact ⟨m, rfl⟩
  · rw [e]
    simp only [Res.bind_ok]
    rw [hq]
    exact ⟨_, rfl⟩

/-- **C96 (wider integers).**  Integer samples converted to a larger precision keep their value: no dither, no clipping. -/
theorem C96_widen (F : RFloats) (working dst : AudioFormat) (hw : IntFormat working) (hd : IntFormat dst) (tw : working.sampleType = 0)
    (td : dst.sampleType = 0) (hle : working.bitsPerSample ≤ dst.bitsPerSample) (asked used : DitherType)
    (hdit : Spec.Dithered working dst asked used) (n : Int) (hn1 : -Gain.Spec.half working ≤ n) (hn2 : n ≤ Gain.Spec.half working - 1)
    (pos : Int) (c : Nat) (out : Int) (cl : Bool)
    (h : Spec.Converted F working dst (ditherValue used pos c) (n * Gain.Spec.step working) out cl) :
    cl = false ∧ out = n * 2 ^ (dst.bitsPerSample - working.bitsPerSample).toNat * Gain.Spec.step dst := by
  have hu : used = .none := hdit.2 (Or.inr ⟨tw, hle⟩)
  subst hu
  have hd0 : ditherValue .none pos c = 0 := rfl
  rw [hd0] at h
  have hval : Spec.value working (n * Gain.Spec.step working) = .fin ((n * Gain.Spec.step working : Int) : Rat) := by
    unfold Spec.value; rw [if_neg (by omega)]
  obtain ⟨s, hs, e1, e2, e3, e4, e5, e6⟩ := range_eq hw
  -- half working * step working is the full scale
  have hfull : Spec.unit working * (Gain.Spec.step working : Rat) * (Gain.Spec.half working : Rat) = 1 := by
    have e5' : (Gain.Spec.half working : Rat) * 2 ^ s = 2 ^ (8 * working.bytesPerSample.toNat - 1) := by exact_mod_cast e5
    unfold Spec.unit
    rw [if_neg (by omega), e2]
    push_cast
    rw [mul_assoc, mul_comm (2 ^ s : Rat), e5', one_div]
    exact inv_mul_cancel₀ (by positivity)
  have hhalf : Gain.Spec.half dst = Gain.Spec.half working * 2 ^ (dst.bitsPerSample - working.bitsPerSample).toNat := by
    unfold Gain.Spec.half
    rw [← pow_add]; congr 1
    have := hw.bits; have := hd.bits; omega
  have hkey : ((n * Gain.Spec.step working : Int) : Rat) * Spec.unit working * (Gain.Spec.half dst : Rat) + 0 =
      ((n * 2 ^ (dst.bitsPerSample - working.bitsPerSample).toNat : Int) : Rat) / 2 ^ 0 := by
    rw [hhalf]
    push_cast
    have : (n : Rat) * (Gain.Spec.step working : Rat) * Spec.unit working * ((Gain.Spec.half working : Rat) * 2 ^ (dst.bitsPerSample - working.bitsPerSample).toNat) =
        (n : Rat) * 2 ^ (dst.bitsPerSample - working.bitsPerSample).toNat * (Spec.unit working * (Gain.Spec.step working : Rat) * (Gain.Spec.half working : Rat)) := by ring
    rw [this, hfull]; ring
  have p2 : (0 : Int) < 2 ^ (dst.bitsPerSample - working.bitsPerSample).toNat := by positivity
  generalize hP : (2 : Int) ^ (dst.bitsPerSample - working.bitsPerSample).toNat = P at *
  have b1 : -Gain.Spec.half dst ≤ n * P := by
    rw [hhalf]
    have := Int.mul_le_mul_of_nonneg_right hn1 p2.le
    linarith
  have b2 : n * P ≤ Gain.Spec.half dst - 1 := by
    rw [hhalf]
    have := Int.mul_le_mul_of_nonneg_right hn2 p2.le
    have : (Gain.Spec.half working - 1) * P = Gain.Spec.half working * P - P := by ring
    omega
  have hmax : Gain.Spec.half dst ≤ 2 ^ 31 := by
    unfold Gain.Spec.half
    have := hd.bits
    exact pow_le_pow_right₀ (by norm_num) (by omega)
  cases h with
  | float v ht => omega
  | floatInf ht => omega
  | intInf neg ht hv => rw [hval] at hv; cases hv
  | int v m ht hv hnear hlim =>
    rw [hval] at hv
    cases hv
    rw [hkey, F.rnd_frac _ 0 (by omega) (by omega), pow_zero, div_one] at hnear
    have hm : m = n * P := nearest_unique hnear ⟨by simp, by simp⟩
    subst hm
    obtain ⟨l1, l2⟩ := hlim
    refine ⟨?_, ?_⟩
    · rw [← Bool.not_eq_true, l2]; omega
    · rw [l1, if_neg (by omega), if_neg (by omega)]

/-! ## Examples -/

/-- Float samples, one channel. -/
def monoFloat : AudioFormat := ⟨1, 32, 4, 1, 4⟩

/-- The conditions of `C96_format`: 16 bit to 24 bit, and 24 bit to 16 bit with the default dither. -/
example : Spec.Chosen { bits := some 24 } ⟨mono16, 48000, 5000, 2⟩ 48000 ⟨0, 24, 4, 1, 4⟩ .triangular ∧
    Spec.Chosen { bits := some 16, dither := some "rectangular" } ⟨stereo24, 48000, 5000, 2⟩ 48000 ⟨0, 16, 2, 2, 3⟩ .rectangular ∧
    (AClip.ofSignal mono16 48000 5000 (fun _ p => (p : Int))).Carries 5000 (fun _ p => p) ∧
    (∀ p : Nat, p < 5000 → Spec.Stored mono16 p) :=
  ⟨⟨by decide, by decide, fun h => absurd rfl h, by decide, by decide, by decide, by decide, by decide, by decide, by decide, by decide, by decide⟩,
   ⟨by decide, by decide, fun h => absurd rfl h, by decide, by decide, by decide, by decide, by decide, by decide, by decide, by decide, by decide⟩,
   AClip.ofSignal_carries _ (by decide) (by decide), by
    intro p hp
    right
    have : (2 : Int) ^ (8 * mono16.bytesPerSample.toNat - 1) = 32768 := by decide
    rw [this]
    omega⟩

/-- 1.5 in float clips at 16 bits, 0.5 becomes 16384 without dither. -/
example (F : RFloats) (out : Int) (cl : Bool) (h : Spec.Converted F monoFloat mono16 0 0x3fc00000 out cl) : out = 32767 ∧ cl = true := by
  have hval : Spec.value monoFloat 0x3fc00000 = .fin (3 / 2) := by decide +kernel
  have hh : Gain.Spec.half mono16 = 32768 := by decide
  have hs : Gain.Spec.step mono16 = 1 := by decide
  cases h with
  | float v ht => exact absurd ht (by decide)
  | floatInf ht => exact absurd ht (by decide)
  | intInf neg ht hv => rw [hval] at hv; cases hv
  | int v n ht hv hnear hlim =>
    rw [hval] at hv
    cases hv
    have e : (3 / 2 : Rat) * Spec.unit monoFloat * (Gain.Spec.half mono16 : Rat) + 0 = ((49152 : Int) : Rat) / 2 ^ 0 := by
      rw [hh, show Spec.unit monoFloat = 1 from rfl]; norm_num
    rw [e, F.rnd_frac _ 0 (by decide) (by omega), pow_zero, div_one] at hnear
    have hm : n = 49152 := nearest_unique hnear ⟨by simp, by simp⟩
    subst hm
    obtain ⟨l1, l2⟩ := hlim
    rw [hh, hs] at l1
    rw [hh] at l2
    exact ⟨by rw [l1]; norm_num, l2.2 (by norm_num)⟩

/-- The conditions of `C96_widen`: the largest 16 bit sample as 24 bit sample. -/
example : IntFormat mono16 ∧ IntFormat stereo24 ∧ Spec.Dithered mono16 stereo24 .triangular .none ∧
    (32767 : Int) * 2 ^ (stereo24.bitsPerSample - mono16.bitsPerSample).toNat * Gain.Spec.step stereo24 = 32767 * 65536 :=
  ⟨⟨by decide, by decide⟩, ⟨by decide, by decide⟩, ⟨by decide, by decide⟩, by decide⟩

/-- The conditions of `C96_same` and of `C96_arguments`. -/
example : Spec.Chosen {} ⟨mono16, 48000, 5000, 2⟩ 48000 mono16 .triangular ∧
    (∀ rate fmt asked, ¬ Spec.Chosen { channels := [2, 2] } ⟨mono16, 48000, 5000, 2⟩ rate fmt asked) ∧
    (∀ rate fmt asked, ¬ Spec.Chosen { dither := some "noise" } ⟨mono16, 48000, 5000, 2⟩ rate fmt asked) :=
  ⟨⟨by decide, by decide, fun h => absurd rfl h, by decide, by decide, by decide, by decide, by decide, by decide, by decide, by decide, by decide⟩,
   fun _ _ _ h => absurd (h.channels (by decide)).1 (by decide),
   fun _ _ _ h => by have := h.dither; simp at this⟩

theorem nan_value : srcValue monoFloat 0x7fc00000 = .nan := by decide +kernel

theorem mac_nan (F : DFloats) (a b : Rat) : Dbl.mac F (.fin a) .nan (.fin b) = .nan := by
  unfold Dbl.mac
  cases F.fused <;> rfl

theorem convert_nan (F : RFloats) : convertSample F monoFloat mono16 .none 0 0 0x7fc00000 = .ub := by
  unfold convertSample
  rw [if_neg (by decide), nan_value, mac_nan]
  generalize (limits mono16).1 = x
  generalize (limits mono16).2 = y
  generalize formatOutputShift mono16 = z
  rfl

theorem tab_ub {α : Type} (f : Nat → Res α) (h : f 0 = .ub) : tab 1 f = .ub := by
  rw [tab, tab]
  simp only [Res.bind_ok]
  rw [h]
  rfl

theorem zero_in : InI64 0 := by unfold InI64 INT64_MAX INT64_MIN; constructor <;> norm_num

/-- An undefined conversion in the only sample of a clip. -/
theorem plane_ub (F : RFloats) (src dst : AudioFormat) (dt : DitherType) (g : AFrame Int) (x : Int) (hg : g.ch 0 0 = some x)
    (hx : convertSample F src dst dt 0 0 x = .ub) : convertPlane F src dst dt (readSample g 0) 1 0 0 = .ub := by
  unfold convertPlane
  rw [tab_ub]
  · rfl
  · have hr : readSample g 0 0 = .ok x := by rw [readSample, hg]
    rw [hr, Res.bind_ok, show (0 : Int) + ((0 : Nat) : Int) = 0 by simp, i64_ok zero_in, Res.bind_ok, hx]

theorem frame_ub (F : RFloats) (src dst : AudioFormat) (dt : DitherType) (hd : dst.numChannels = 1) (g : AFrame Int) (x : Int) (hl : g.len = 1)
    (hg : g.ch 0 0 = some x) (hx : convertSample F src dst dt 0 0 x = .ub) (rate n m : Int) (oe : Bool) (fetch : Nat → Int → Option (AFrame Int))
    (hf : fetch 0 0 = some g) : (formatFilter F src ⟨dst, rate, n, m⟩ dt oe).ready 0 fetch = .ub := by
  show (deref (fetch 0 0) >>= _) = _
  rw [hf]
  simp only [deref, Res.bind_ok, hl]
  rw [newAudioFrame_ok (by omega)]
  simp only [Res.bind_ok]
  rw [hd, show List.range 1 = [0] from rfl, outLoop, Int.zero_mul]
  have := plane_ub F src dst dt g x hg hx
  rw [show (1 : Int).toNat = 1 from rfl, this]
  rfl

/-- A float sample that is not a number, converted to integer: undefined behaviour, whatever the rounding. -/
theorem C96_any_sample_refuted (F : RFloats) : ∃ (clip : AClip Int) (sig : Signal Int) (a : Args) (out : AClip Int),
    clip.Carries 1 sig ∧ Spec.Chosen a clip.ai 48000 mono16 .none ∧ audioResampleCreate F clip a = .ok out ∧ out.frame 0 = .ub := by
  have hc : (AClip.ofSignal monoFloat 48000 1 (fun _ _ => (0x7fc00000 : Int))).Carries 1 (fun _ _ => 0x7fc00000) :=
    AClip.ofSignal_carries _ (by decide) (by decide)
  have hch : Spec.Chosen { sampletype := some 0, bits := some 16, dither := some "none" }
      (AClip.ofSignal monoFloat 48000 1 (fun _ _ => (0x7fc00000 : Int))).ai 48000 mono16 .none :=
    ⟨by decide, by decide, fun h => absurd rfl h, by decide, by decide, by decide, by decide, by decide, by decide, by decide, by decide, by decide⟩
  generalize hcl : AClip.ofSignal monoFloat 48000 1 (fun _ _ => (0x7fc00000 : Int)) = clip at hc hch
  have hfmt : clip.ai = ⟨monoFloat, 48000, 1, 1⟩ := by rw [← hcl]; rfl
  obtain ⟨out, e1, e2, e3⟩ := create_frames (formatFilter F monoFloat ⟨mono16, 48000, 1, 1⟩ .none false) [clip] 1 (show isValidAudioInfo ⟨mono16, 48000, 1, 1⟩ = true by decide) rfl (by decide) (by
    intro k hk
    refine ⟨_, rfl, ?_⟩
    intro r hr
    simp only [List.mem_singleton] at hr
    subst hr
    exact ⟨by simp, clip, 1, _, rfl, hc⟩)
  refine ⟨clip, _, _, out, hc, hch, ?_, ?_⟩
  · rw [create_format F clip _ mono16 48000 .none hch (by rw [hfmt]; rfl) (by rw [hfmt]; rfl) (by rw [hfmt]; decide), hfmt]
    exact e1
  · obtain ⟨rq, fetch, r1, r2, r3, r4, r5⟩ := e3 0 (by decide)
    apply r5
    cases r1
    obtain ⟨src, f1, f2⟩ := r2 0 0 (by simp) clip 1 _ rfl hc
    exact frame_ub F monoFloat mono16 .none rfl src 0x7fc00000 f2.len (f2.samples 0 (by rw [hfmt]; decide) 0 (by decide)) (convert_nan F) _ _ _ _ fetch f1

end VS.Resample
