import Verif.Format.LemmasName
import Verif.Format.Props

/-! # Property C21: format names -/

namespace VS.Format
open VS

/-- C21: `getVideoFormatName` succeeds on every good format, and the name with its terminator fits in
the documented 32 bytes. -/
theorem C21_total (f : VFmt) (g : GoodVideo f) :
    ∃ n, getVideoFormatName f = some n ∧ n.length + 1 ≤ 32 := by
  refine ⟨_, name_documented f g.1, ?_⟩
  have hl := suffix_length (rgb := cfRGB) (c := f.colorFamily) g.1.2.1
  split
  · rw [List.length_append]
    have : "Gray".toList.length = 4 := by decide
    omega
  · split
    · rw [List.length_append]
      have : "RGB".toList.length = 3 := by decide
      omega
    · have := (yuv_eq g.1.2.2.1 g.1.2.2.2.1 hl).2.1
      omega

/-- C21: different good formats have different names. -/
theorem C21_injective (f f' : VFmt) (g : GoodVideo f) (g' : GoodVideo f')
    (e : getVideoFormatName f = getVideoFormatName f') : f = f' := by
  have hl := suffix_length (rgb := cfRGB) (c := f.colorFamily) g.1.2.1
  have hl' := suffix_length (rgb := cfRGB) (c := f'.colorFamily) g'.1.2.1
  rw [name_documented f g.1, name_documented f' g'.1, Option.some.injEq] at e
  have key : f.colorFamily = f'.colorFamily ∧ f.sampleType = f'.sampleType ∧
      f.bitsPerSample = f'.bitsPerSample ∧ f.subSamplingW = f'.subSamplingW ∧
      f.subSamplingH = f'.subSamplingH := by
    obtain ⟨⟨d1, d2, d3, d4, d5⟩, _⟩ := g
    obtain ⟨⟨d1', d2', d3', d4', d5'⟩, _⟩ := g'
    obtain ⟨y1, _⟩ := yuv_eq d3 d4 hl
    obtain ⟨y1', _⟩ := yuv_eq d3' d4' hl'
    have r1 : ¬ cfRGB = cfGray := by decide
    have r2 : ¬ cfYUV = cfGray := by decide
    have r3 : ¬ cfYUV = cfRGB := by decide
    rcases d1 with c | c | c <;> rcases d1' with c' | c' | c' <;>
      simp only [c, c', if_true, r1, r2, r3, if_false] at e y1 y1'
    · rw [List.append_cancel_left_eq] at e
      obtain ⟨e1, e2⟩ := suffix_inj d2 d2' e
      obtain ⟨w0, h0⟩ := d5 (by rw [c]; decide)
      obtain ⟨w0', h0'⟩ := d5' (by rw [c']; decide)
      exact ⟨by rw [c, c'], e1, e2, by omega, by omega⟩
    · exact absurd (congrArg List.head? e) (by simp)
    · rw [y1'] at e; exact absurd (congrArg List.head? e) (by simp)
    · exact absurd (congrArg List.head? e) (by simp)
    · rw [List.append_cancel_left_eq] at e
      obtain ⟨e1, e2⟩ := suffix_inj d2 d2' e
      obtain ⟨w0, h0⟩ := d5 (by rw [c]; decide)
      obtain ⟨w0', h0'⟩ := d5' (by rw [c']; decide)
      exact ⟨by rw [c, c'], e1, e2, by omega, by omega⟩
    · rw [y1'] at e; exact absurd (congrArg List.head? e) (by simp)
    · rw [y1] at e; exact absurd (congrArg List.head? e) (by simp)
    · rw [y1] at e; exact absurd (congrArg List.head? e) (by simp)
    · rw [c] at hl; rw [c'] at hl'
      obtain ⟨ew, eh, es⟩ := yuv_inj d3 d4 d3' d4' hl hl' e
      obtain ⟨e1, e2⟩ := suffix_inj d2 d2' es
      exact ⟨by rw [c, c'], e1, e2, ew, eh⟩
  obtain ⟨k1, k2, k3, k4, k5⟩ := key
  have q := ((C20_struct_check f (by
    have := g.1.1; simp only [cfGray, cfRGB, cfYUV, cfUndefined] at *; omega)).2).1 g
  have q' := ((C20_struct_check f' (by
    have := g'.1.1; simp only [cfGray, cfRGB, cfYUV, cfUndefined] at *; omega)).2).1 g'
  rw [k1, k2, k3, k4, k5, q'] at q
  exact (Prod.mk.inj q).2.symm

/-- C21: the name of an undefined format is no other format's name. -/
theorem C21_undefined (f f' : VFmt) (hu : f.colorFamily = cfUndefined) (g' : GoodVideo f') :
    getVideoFormatName f ≠ getVideoFormatName f' := by
  have hl' := suffix_length (rgb := cfRGB) (c := f'.colorFamily) g'.1.2.1
  obtain ⟨y1', _⟩ := yuv_eq g'.1.2.2.1 g'.1.2.2.2.1 hl'
  rw [name_documented f' g'.1]
  unfold getVideoFormatName
  rw [hu]
  have e : snprintf 32 "Undefined".toList = "Undefined".toList := by decide
  have r1 : ¬ cfUndefined = cfGray := by decide
  have r2 : ¬ cfUndefined = cfRGB := by decide
  have r3 : ¬ cfUndefined = cfYUV := by decide
  simp only [r1, r2, r3, if_false, e]
  split
  · simp
  · intro h
    rw [Option.some.injEq] at h
    have h := congrArg List.head? h
    revert h
    split
    · simp
    · split
      · simp
      · rw [y1']; simp

/-- The names of two formats that are easily mixed up. -/
example : getVideoFormatName ⟨3, 0, 16, 2, 1, 0, 3⟩ = some "YUV422P16".toList ∧
    getVideoFormatName ⟨3, 1, 16, 2, 1, 3, 3⟩ = some "YUVssw1ssh3PH".toList ∧
    getVideoFormatName ⟨2, 0, 16, 2, 0, 0, 3⟩ = some "RGB48".toList := by decide +kernel

/-- C21, C19: every identifier of the public list decodes to the format whose name it has. -/
theorem C21_presets (r : Reg) :
    ∀ p ∈ presets, ∃ f, getVideoFormatByID r p.2 = (true, f) ∧ GoodVideo f ∧
      getVideoFormatName f = some p.1 := by
  intro p hp
  have h : ∀ p ∈ presets, p.2 < 4294967296 ∧ isV3Id p.2 = false ∧
      (getVideoFormatByID ⟨[], 1000⟩ p.2).1 = true ∧
      (getVideoFormatByID ⟨[], 1000⟩ p.2).2.colorFamily ≠ cfUndefined ∧
      getVideoFormatName (getVideoFormatByID ⟨[], 1000⟩ p.2).2 = some p.1 := by decide +kernel
  obtain ⟨h0, h1, h2, h3, h4⟩ := h p hp
  have e : getVideoFormatByID r p.2 = getVideoFormatByID ⟨[], 1000⟩ p.2 := by
    unfold getVideoFormatByID; rw [h1]; rfl
  refine ⟨(getVideoFormatByID ⟨[], 1000⟩ p.2).2, ?_, ?_, h4⟩
  · rw [e]; exact Prod.ext h2 rfl
  · rcases (C19_encode_decode ⟨[], 1000⟩ p.2 h0 h2).1 with z | z
    · rw [z] at h3; exact absurd rfl h3
    · exact z

example : ("YUV420P10".toList, 0x300a0101) ∈ presets := by decide +kernel

/-- C21 for audio: the name fits in 32 bytes, and it tells the sample type, the number of bits and
the number of channels. -/
theorem C21_audio (f f' : AFmt) (g : GoodAudio f) (g' : GoodAudio f') :
    (∃ n, getAudioFormatName f = some n ∧ n.length + 1 ≤ 32) ∧
    (getAudioFormatName f = getAudioFormatName f' →
      f.sampleType = f'.sampleType ∧ f.bitsPerSample = f'.bitsPerSample ∧
      f.numChannels = f'.numChannels) := by
  have name : ∀ f : AFmt, GoodAudio f →
      ∃ s, (f.sampleType = stFloat ∧ s = 'F' :: ' ' :: '(' :: [] ∨
        f.sampleType = stInteger ∧ s = ' ' :: '(' :: []) ∧
      getAudioFormatName f = some ("Audio".toList ++ (Nat.toDigits 10 f.bitsPerSample.toNat ++ (s ++
        (Nat.toDigits 10 f.numChannels.toNat ++ ' ' :: "CH)".toList)))) ∧
      f.bitsPerSample.toNat < 100 ∧ f.numChannels.toNat < 100 ∧
      0 ≤ f.bitsPerSample ∧ 0 ≤ f.numChannels := by
    intro f g
    obtain ⟨d, _, nc⟩ := g
    have hv := validAudio_iff.2 d
    have hn : 0 ≤ f.numChannels ∧ f.numChannels ≤ 64 := by
      rw [nc]; unfold channels
      have := List.length_filter_le (fun i => f.channelLayout.testBit i) (List.range 64)
      rw [List.length_range] at this
      omega
    have hb : 0 ≤ f.bitsPerSample ∧ f.bitsPerSample ≤ 32 := by obtain ⟨d, _⟩ := d; omega
    have e1 : fmtD f.bitsPerSample = Nat.toDigits 10 f.bitsPerSample.toNat := by
      unfold fmtD; rw [if_neg (by omega)]; congr 1; omega
    have e2 : fmtD f.numChannels = Nat.toDigits 10 f.numChannels.toNat := by
      unfold fmtD; rw [if_neg (by omega)]; congr 1; omega
    have l1 := digits_length (n := f.bitsPerSample.toNat) (k := 2) (by omega) (by omega)
    have l2 := digits_length (n := f.numChannels.toNat) (k := 2) (by omega) (by omega)
    unfold getAudioFormatName
    rw [hv, e1, e2]
    simp only [Bool.not_true, Bool.false_eq_true, if_false]
    by_cases ht : f.sampleType = stFloat
    · refine ⟨_, Or.inl ⟨ht, rfl⟩, ?_, by omega, by omega, hb.1, hn.1⟩
      rw [if_pos ht, snprintf_of_lt]
      · simp
      · simp; omega
    · refine ⟨_, Or.inr ⟨?_, rfl⟩, ?_, by omega, by omega, hb.1, hn.1⟩
      · rcases d.1 with x | x
        · exact x.1
        · exact absurd x.1 ht
      · rw [if_neg ht, snprintf_of_lt]
        · simp
        · simp; omega
  obtain ⟨s, hs, n, b1, b2, b3, b4⟩ := name f g
  obtain ⟨s', hs', n', b1', b2', b3', b4'⟩ := name f' g'
  have l1 := digits_length (n := f.bitsPerSample.toNat) (k := 2) (by omega) (by omega)
  have l2 := digits_length (n := f.numChannels.toNat) (k := 2) (by omega) (by omega)
  refine ⟨⟨_, n, ?_⟩, fun e => ?_⟩
  · rcases hs with ⟨_, hs⟩ | ⟨_, hs⟩ <;> subst hs <;> simp <;> omega
  · rw [n, n', Option.some.injEq, List.append_cancel_left_eq] at e
    have tail : ∀ {a b : Nat}, Nat.toDigits 10 a ++ ' ' :: "CH)".toList =
        Nat.toDigits 10 b ++ ' ' :: "CH)".toList → a = b := fun h =>
      digits_inj (split_unique (fun _ => digits_isDigit) (fun _ => digits_isDigit) (by decide)
        (by decide) h).1
    rcases hs with ⟨t, hs⟩ | ⟨t, hs⟩ <;> rcases hs' with ⟨t', hs'⟩ | ⟨t', hs'⟩ <;> subst hs hs' <;>
      simp only [List.cons_append, List.nil_append] at e
    · obtain ⟨p, q⟩ := split_unique (fun _ => digits_isDigit) (fun _ => digits_isDigit) (by decide)
        (by decide) e
      simp only [List.cons.injEq, true_and] at q
      have := digits_inj p; have := tail q
      exact ⟨by rw [t, t'], by omega, by omega⟩
    · obtain ⟨p, q⟩ := split_unique (fun _ => digits_isDigit) (fun _ => digits_isDigit) (by decide)
        (by decide) e
      exact absurd (congrArg List.head? q) (by simp)
    · obtain ⟨p, q⟩ := split_unique (fun _ => digits_isDigit) (fun _ => digits_isDigit) (by decide)
        (by decide) e
      exact absurd (congrArg List.head? q) (by simp)
    · obtain ⟨p, q⟩ := split_unique (fun _ => digits_isDigit) (fun _ => digits_isDigit) (by decide)
        (by decide) e
      simp only [List.cons.injEq, true_and] at q
      have := digits_inj p; have := tail q
      exact ⟨by rw [t, t'], by omega, by omega⟩

example : GoodAudio ⟨1, 32, 4, 2, 3⟩ ∧ getAudioFormatName ⟨1, 32, 4, 2, 3⟩ = some "Audio32F (2 CH)".toList :=
  ⟨(C20_audio_struct_check _).1 (by decide +kernel), by decide +kernel⟩

end VS.Format
