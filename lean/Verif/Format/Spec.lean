import Verif.Format.Model

/-!
# Specification of formats

What the documentation of `queryVideoFormat`, `queryAudioFormat` and of the fields of the format
structs says, doc/api/vapoursynth4.h.rst:881-986, 1771-1826.
-/

namespace VS.Format
open VS

/-- The documented combinations of a video format with a defined colour family.  Only YUV may be
subsampled. -/
def Documented (colorFamily sampleType bits subW subH : Int) : Prop :=
  (colorFamily = cfGray ∨ colorFamily = cfRGB ∨ colorFamily = cfYUV) ∧
  ((sampleType = stInteger ∧ 8 ≤ bits ∧ bits ≤ 32) ∨ (sampleType = stFloat ∧ (bits = 16 ∨ bits = 32))) ∧
  (0 ≤ subW ∧ subW ≤ 4) ∧ (0 ≤ subH ∧ subH ≤ 4) ∧
  (colorFamily ≠ cfYUV → subW = 0 ∧ subH = 0)

instance (c t b w h : Int) : Decidable (Documented c t b w h) := by
  unfold Documented; infer_instance

/-- `bytes` is the smallest power of two number of bytes that can hold `bits` bits. -/
def SmallestBytes (bits bytes : Int) : Prop :=
  (∃ k : Nat, bytes = ((2 ^ k : Nat) : Int)) ∧ bits ≤ 8 * bytes ∧
  ∀ k : Nat, bits ≤ 8 * ((2 ^ k : Nat) : Int) → bytes ≤ ((2 ^ k : Nat) : Int)

/-- A struct that describes a documented format and whose derived fields fit. -/
def GoodVideo (f : VFmt) : Prop :=
  Documented f.colorFamily f.sampleType f.bitsPerSample f.subSamplingW f.subSamplingH ∧
  SmallestBytes f.bitsPerSample f.bytesPerSample ∧
  f.numPlanes = (if f.colorFamily = cfGray then 1 else 3)

/-- The documented combinations of an audio format. -/
def DocumentedAudio (sampleType bits : Int) (layout : Nat) : Prop :=
  ((sampleType = stInteger ∧ 16 ≤ bits ∧ bits ≤ 32) ∨ (sampleType = stFloat ∧ bits = 32)) ∧ layout ≠ 0

/-- The number of channels in a layout: one for every bit that is set. -/
def channels (layout : Nat) : Nat := ((List.range 64).filter fun i => layout.testBit i).length

/-- An audio struct that describes a documented format and whose derived fields fit. -/
def GoodAudio (f : AFmt) : Prop :=
  DocumentedAudio f.sampleType f.bitsPerSample f.channelLayout ∧
  SmallestBytes f.bitsPerSample f.bytesPerSample ∧
  f.numChannels = channels f.channelLayout

/-- A frame rate that is a reduced fraction, or unknown (denominator zero). -/
def ReducedRate (num den : Int) : Prop := den = 0 ∨ Int.gcd num den = 1

instance (n d : Int) : Decidable (ReducedRate n d) := by unfold ReducedRate; infer_instance

/-- The colour families version 3 programs can ask for. -/
def NamedFamily (c : Int) : Prop := c = cmGray ∨ c = cmRGB ∨ c = cmYUV ∨ c = cmYCoCg

/-- Requests version 3 programs can make: any, but with a colour family of the interface. -/
def NamedCall : Call → Prop
  | .register c _ _ _ _ => NamedFamily c ∨ c = cmCompat
  | _ => True

/-- The combinations `registerFormat` of version 3 is for. -/
def Documented3 (c t b w h : Int) : Prop :=
  NamedFamily c ∧ ((t = stInteger ∧ 8 ≤ b ∧ b ≤ 32) ∨ (t = stFloat ∧ (b = 16 ∨ b = 32))) ∧
  (0 ≤ w ∧ w ≤ 4) ∧ (0 ≤ h ∧ h ≤ 4) ∧ (c = cmRGB → w = 0 ∧ h = 0)

/-- The format has these properties. -/
def Is (f : V3Fmt) (c t b w h : Int) : Prop :=
  f.colorFamily = c ∧ f.sampleType = t ∧ f.bitsPerSample = b ∧ f.subSamplingW = w ∧ f.subSamplingH = h

/-- The registry a core can have after some history of requests. -/
def Reachable (r : Reg) : Prop :=
  ∃ r0 calls res, newReg = .ok r0 ∧ (∀ c ∈ calls, NamedCall c) ∧ run r0 calls = .ok (r, res)

end VS.Format
