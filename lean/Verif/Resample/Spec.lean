import Verif.Resample.Model
import Verif.Gain.Spec

/-!
# What AudioResample is meant to do

Three steps, each described on whole signals: every channel becomes a signal of normalized `float` samples, surrounded by
silence; the channels are mixed; output sample `m` is the filter, in phase `m·q mod p`, around input position `⌊m·q/p⌋`.  The
result is converted to the output format.
-/

namespace VS.Resample.Spec
open VS VS.Audio VS.Gain VS.Resample

/-- An integer sample fits its container; a float sample is any bit pattern. -/
def Stored (fmt : AudioFormat) (x : Int) : Prop :=
  fmt.sampleType = 1 ∨ (-(2 ^ (8 * fmt.bytesPerSample.toNat - 1)) ≤ x ∧ x < 2 ^ (8 * fmt.bytesPerSample.toNat - 1))

/-- `n` limited to the values of an integer format, in container units; and whether it had to be. -/
def Limited (fmt : AudioFormat) (n : Int) (out : Int) (clipped : Bool) : Prop :=
  out = (if n < -Gain.Spec.half fmt then -Gain.Spec.half fmt
    else if n > Gain.Spec.half fmt - 1 then Gain.Spec.half fmt - 1 else n) * Gain.Spec.step fmt ∧
  (clipped = true ↔ n < -Gain.Spec.half fmt ∨ n > Gain.Spec.half fmt - 1)

/-- Size of one container unit of the source, relative to full scale. -/
def unit (fmt : AudioFormat) : Rat := if fmt.sampleType = 1 then 1 else 1 / 2 ^ (8 * fmt.bytesPerSample.toNat - 1)

/-- The number a sample stands for. -/
def value (fmt : AudioFormat) (x : Int) : Dbl := if fmt.sampleType = 1 then f32 x else .fin x

/-- A value in range of the given dither: within ± 1/2 or ± 1 of the steps of the output. -/
def DitherRange (dt : DitherType) (d : Rat) : Prop :=
  match dt with
  | .none => d = 0
  | .rectangular => -(1 / 2) ≤ d ∧ d < 1 / 2
  | .triangular => -1 < d ∧ d < 1

/-- `out` is sample `x` of format `working`, converted to format `dst` with dither value `d` (in steps of the output). -/
inductive Converted (F : RFloats) (working dst : AudioFormat) (d : Rat) (x out : Int) (clipped : Bool) : Prop
  /-- to float: the float next to the value -/
  | float (v : Rat) : dst.sampleType = 1 → value working x = .fin v → out = F.toF32 (.fin (v * unit working)) → clipped = false →
      Converted F working dst d x out clipped
  /-- to float, no number -/
  | floatInf : dst.sampleType = 1 → (∀ v, value working x ≠ .fin v) → out = F.toF32 (value working x) → clipped = false →
      Converted F working dst d x out clipped
  /-- to integer: the step next to the value plus dither, as a `double` -/
  | int (v : Rat) (n : Int) : dst.sampleType = 0 → value working x = .fin v →
      Gain.Spec.Nearest (F.rnd (v * unit working * Gain.Spec.half dst + d)) n → Limited dst n out clipped →
      Converted F working dst d x out clipped
  /-- to integer, infinite -/
  | intInf (neg : Bool) : dst.sampleType = 0 → value working x = .inf neg →
      out = (if neg then -Gain.Spec.half dst else Gain.Spec.half dst - 1) * Gain.Spec.step dst → clipped = true →
      Converted F working dst d x out clipped

/-- Frame `k` of a clip with `N` samples contains a clipped sample. -/
def ClipsIn (numChannels N : Nat) (clip : Nat → Nat → Bool) (k : Nat) : Prop :=
  ∃ c p, c < numChannels ∧ p < N ∧ p / 3072 = k ∧ clip c p = true

/-- What the node delivers: all frames carry the signal `sig`, unless there is clipping and an error was asked for; the
message says where. -/
structure Delivers (out : AClip Int) (N : Nat) (sig : Signal Int) (clip : Nat → Nat → Bool) (overflowError : Bool) : Prop where
  count : out.ai.numSamples = N
  frames : out.ai.numFrames = frameCount N
  ok : ∀ k, k < frameCount N → (¬ ClipsIn out.ai.format.numChannels N clip k ∨ overflowError = false) →
    ∃ f, out.frame k = .ok f ∧ IsFrame out.ai.format N sig k f
  err : ∀ k, k < frameCount N → ClipsIn out.ai.format.numChannels N clip k → overflowError = true →
    out.frame k = .err ("AudioResample: clipping detected in the sample interval " ++ toString ((k * 3072 : Nat) : Int) ++ " to " ++
      toString ((min N ((k + 1) * 3072) - 1 : Nat) : Int))

/-! ## Mixing and resampling -/

/-- A sample as normalized float. -/
def normalised (F : RFloats) (fmt : AudioFormat) (x : Int) : Int :=
  if fmt.sampleType = 1 then F.toF32 (f32 x) else F.toF32 (.fin (x * unit fmt))

/-- The input at any position: silence before the start and after the end. -/
def source (F : RFloats) (fmt : AudioFormat) (N : Nat) (sig : Signal Int) (c : Nat) (t : Int) : Int :=
  if 0 ≤ t ∧ t < N then normalised F fmt (sig c t.toNat) else 0

/-- The weighted sum of the channels from number `ic` on; a weight of zero takes no part. -/
def mixFrom (F : RFloats) (w : Nat → Int) (s : Nat → Int) (ic : Nat) : Nat → Int → Int
  | 0, acc => acc
  | n + 1, acc => mixFrom F w s (ic + 1) n (if w ic = 0 ∨ w ic = 2 ^ 31 then acc else F.macF acc (w ic) (s ic))

/-- Output channel `oc` before resampling. -/
def mixed (F : RFloats) (weights : Option (Nat → Nat → Int)) (numIn : Nat) (s : Nat → Int → Int) (oc : Nat) (t : Int) : Int :=
  match weights with
  | none => s oc t
  | some w => mixFrom F (w oc) (fun ic => s ic t) 0 numIn 0

/-- Output sample `m` for the rate ratio `p/q` and a filter of `2·half` coefficients. -/
def filtered (F : RFloats) (p q half : Nat) (s : Int → Int) (m : Nat) : Int :=
  F.filtF ((List.range (2 * half)).map fun j : Nat => (s ((m * q / p : Nat) - half + 1 + j), F.tap p q half (m * q % p : Nat) j))

/-- With or without a change of the rate. -/
def resampled (F : RFloats) (ratio : Option (Nat × Nat × Nat)) (s : Int → Int) (m : Nat) : Int :=
  match ratio with
  | some (p, q, half) => filtered F p q half s m
  | none => s m

/-- The rate ratio in lowest terms and half the number of coefficients. -/
structure Ratio (F : RFloats) (inRate outRate : Nat) (p q half : Nat) : Prop where
  p_eq : p = outRate / Nat.gcd inRate outRate
  q_eq : q = inRate / Nat.gcd inRate outRate
  /-- 64 periods of the lower rate to each side -/
  half_near : |(half : Rat) - 64 * max 1 (inRate / outRate : Rat)| < 2
  half_ge : 64 ≤ half
  half_le : half ≤ 4096
  bank : p * half ≤ 2 ^ 22

/-- The smallest number of samples that covers the duration of `N` input samples. -/
def outCount (inRate outRate N : Nat) : Nat := (N * outRate + inRate - 1) / inRate

/-! ## Arguments -/

/-- The output description the arguments ask for: what is not given is taken from the input.  `samplerate` and `bits` saturate at the
limits of `int`; float has 32 bits unless something else is asked for, which is then refused. -/
structure Chosen (a : Args) (src : AudioInfo) (rate : Nat) (fmt : AudioFormat) (dt : DitherType) : Prop where
  rate_pos : 1 ≤ rate
  rate_eq : (rate : Int) = match a.samplerate with
    | some r => max INT_MIN (min r INT_MAX)
    | none => src.sampleRate
  channels : a.channels ≠ [] → a.channels.Nodup ∧ (∀ c ∈ a.channels, 0 ≤ c ∧ c < 64) ∧
    ∀ j : Nat, fmt.channelLayout.testBit j = true ↔ (j : Int) ∈ a.channels
  same_channels : a.channels = [] → fmt.channelLayout = src.format.channelLayout
  type : fmt.sampleType = match a.sampletype with
    | some t => if t = 0 then 0 else 1
    | none => src.format.sampleType
  bits : fmt.bitsPerSample = match a.bits with
    | some b => max INT_MIN (min b INT_MAX)
    | none => if fmt.sampleType = 1 then 32 else src.format.bitsPerSample
  dither : a.dither = none ∧ dt = .triangular ∨ a.dither = some "triangular" ∧ dt = .triangular ∨
    a.dither = some "rectangular" ∧ dt = .rectangular ∨ a.dither = some "none" ∧ dt = .none
  legal_bits : 16 ≤ fmt.bitsPerSample ∧ fmt.bitsPerSample ≤ 32
  legal_type : fmt.sampleType = 0 ∨ fmt.sampleType = 1 ∧ fmt.bitsPerSample = 32
  legal_layout : fmt.channelLayout ≠ 0
  bytes : fmt.bytesPerSample = if fmt.bitsPerSample = 16 then 2 else 4
  count : fmt.numChannels = popcount fmt.channelLayout

/-- Dither is for integer output with less precision than the samples it is made from. -/
def Dithered (working fmt : AudioFormat) (asked used : DitherType) : Prop :=
  (fmt.sampleType = 0 ∧ (working.sampleType = 1 ∨ fmt.bitsPerSample < working.bitsPerSample) → used = asked) ∧
  (fmt.sampleType = 1 ∨ (working.sampleType = 0 ∧ working.bitsPerSample ≤ fmt.bitsPerSample) → used = .none)

end VS.Resample.Spec
