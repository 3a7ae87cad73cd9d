import Verif.Audio.Model
import Mathlib.Algebra.Order.Field.Rat
import Mathlib.Algebra.Order.Group.Abs

/-!
# AudioGain and AudioMix

Model of src/core/audiofilters.cpp:436-909.  Integer samples are the values of the container (`int16_t`, `int32_t`), float
samples are bit patterns; both are `Int` here.  Arithmetic in `double` is exact arithmetic followed by the rounding of
`DFloats`; values of 2^1024 and above become infinite.  The sign of zero is left out: it does not reach an integer.
-/

namespace VS.Gain
open VS VS.Audio

/-- A `double`. -/
inductive Dbl where
  | fin (q : Rat)
  | inf (neg : Bool)
  | nan
  deriving DecidableEq

/-- The floating point arithmetic of the machine.  The conditions hold for IEEE double precision with rounding to
nearest. -/
structure DFloats where
  /-- the double precision number next to a number -/
  rnd : Rat → Rat
  /-- rounding keeps the order -/
  rnd_mono : ∀ p q, p ≤ q → rnd p ≤ rnd q
  /-- relative error, and the absolute one of very small numbers -/
  rnd_close : ∀ q, |rnd q - q| ≤ |q| / 2 ^ 53 + 1 / 2 ^ 1075
  /-- numbers with at most 53 bits are not rounded: fractions -/
  rnd_frac : ∀ (m : Int) (e : Nat), m.natAbs ≤ 2 ^ 53 → e ≤ 1074 → rnd (m / 2 ^ e) = m / 2 ^ e
  /-- the same for large numbers -/
  rnd_big : ∀ (m : Int) (e : Nat), m.natAbs ≤ 2 ^ 53 → e ≤ 970 → rnd (m * 2 ^ e) = m * 2 ^ e
  /-- whether the compiler contracts `a + b * c` into one operation with a single rounding -/
  fused : Bool
  /-- `srcPtr[i] * gain` for float samples: bits of the gain and of the sample -/
  gainF : Nat → Int → Int
  /-- the sum over all sources and the conversion to `float` for float samples: bits of the samples and weights -/
  mixF : List (Int × Nat) → Int

namespace Dbl

/-- The number with this bit pattern in IEEE double precision: what a `double` argument is. -/
def ofBits (b : Nat) : Dbl :=
  let e : Nat := b / 2 ^ 52 % 2048
  let m : Nat := b % 2 ^ 52
  let neg := b / 2 ^ 63 % 2 = 1
  if e = 2047 then (if m = 0 then .inf (decide neg) else .nan)
  else
    let a : Rat := if e = 0 then m / 2 ^ 1074 else if e < 1075 then (2 ^ 52 + m) / 2 ^ (1075 - e) else (2 ^ 52 + m) * 2 ^ (e - 1075)
    .fin (if neg then -a else a)

/-- A rounded result: too large is infinite. -/
def ofRat (r : Rat) : Dbl := if |r| ≥ 2 ^ 1024 then .inf (decide (r < 0)) else .fin r

/-- Product of doubles. -/
def mul (F : DFloats) : Dbl → Dbl → Dbl
  | .fin a, .fin b => ofRat (F.rnd (a * b))
  | .fin a, .inf s => if a = 0 then .nan else .inf (s != decide (a < 0))
  | .inf s, .fin a => if a = 0 then .nan else .inf (s != decide (a < 0))
  | .inf s, .inf t => .inf (s != t)
  | _, _ => .nan

/-- Sum of doubles. -/
def add (F : DFloats) : Dbl → Dbl → Dbl
  | .fin a, .fin b => ofRat (F.rnd (a + b))
  | .fin _, .inf s => .inf s
  | .inf s, .fin _ => .inf s
  | .inf s, .inf t => if s = t then .inf s else .nan
  | _, _ => .nan

/-- `tmp += x * w`, audiofilters.cpp:668, 735, 797: two roundings, or one if contracted. -/
def mac (F : DFloats) (t x w : Dbl) : Dbl :=
  if F.fused then
    match t, x, w with
    | .fin a, .fin b, .fin c => ofRat (F.rnd (a + b * c))
    | _, _, _ => add F t (mul F x w)
  else add F t (mul F x w)

/-- `std::round`: to the nearest integer, halves away from zero. -/
def roundAway (q : Rat) : Int := if 0 ≤ q then (q + 1 / 2).floor else -(-q + 1 / 2).floor

/-- `std::round` of a double. -/
def round : Dbl → Dbl
  | .fin q => .fin (roundAway q)
  | d => d

/-- `value / range.step`; the step is a power of two. -/
def divStep (F : DFloats) (d : Dbl) (step : Nat) : Dbl :=
  match d with
  | .fin q => ofRat (F.rnd (q / step))
  | d => d

/-- `std::clamp(v, lo, hi)`: `v < lo ? lo : hi < v ? hi : v`; comparisons with NaN are false. -/
def clamp (d : Dbl) (lo hi : Rat) : Dbl :=
  match d with
  | .fin q => if q < lo then .fin lo else if hi < q then .fin hi else .fin q
  | .inf true => .fin lo
  | .inf false => .fin hi
  | .nan => .nan

/-- `a != b`: true if one side is NaN. -/
def ne (a b : Dbl) : Bool :=
  match a, b with
  | .nan, _ => true
  | _, .nan => true
  | a, b => decide (a ≠ b)

/-- `static_cast<int16_t>`, `static_cast<int32_t>` for containers of `bytes` bytes: the fraction is dropped; a value that
does not fit is undefined behaviour.  (The `int16_t` conversion is taken as direct.) -/
def toInt (bytes : Int) : Dbl → Res Int
  | .fin q =>
    let t : Int := if 0 ≤ q then q.floor else -(-q).floor
    if -(2 ^ (8 * bytes.toNat - 1) : Int) ≤ t ∧ t < (2 ^ (8 * bytes.toNat - 1) : Int) then .ok t else .ub
  | _ => .ub

end Dbl

/-- `intSampleRange`, audiofilters.cpp:448-454: step, least and largest value.  The exponents are not negative in a valid
format. -/
def intSampleRange (f : AudioFormat) : Nat × Int × Int :=
  (2 ^ (f.bytesPerSample * 8 - f.bitsPerSample).toNat, -2 ^ (f.bitsPerSample - 1).toNat, 2 ^ (f.bitsPerSample - 1).toNat - 1)

/-- `quantizeIntSample`, audiofilters.cpp:458-463: the value and `clipped`. -/
def quantizeIntSample (F : DFloats) (value : Dbl) (range : Nat × Int × Int) : Dbl × Bool :=
  let rounded := (value.divStep F range.1).round
  let limited := rounded.clamp range.2.1 range.2.2
  (limited.mul F (.fin range.1), limited.ne rounded)

/-- The numbers in the clipping messages, audiofilters.cpp:500, 503, 547, 550, 674, 677, 741, 744:
`n * VS_AUDIO_FRAME_SAMPLES` and `n * VS_AUDIO_FRAME_SAMPLES + length - 1`, all in `int`. -/
def interval (n length : Int) : Res (Int × Int) := do
  let a ← i32 (n * SAMPLES)
  let b ← i32 (a + length)
  let c ← i32 (b - 1)
  pure (a, c)

/-- What the sample loops carry along: the output buffers, `overflowWarned`, `error`. -/
structure Loop where
  ch : Bufs Int
  warned : Bool
  error : Bool

/-- What is done if a sample was clipped, audiofilters.cpp:498-505, 545-552, 672-679, 739-746. -/
def reportClip (clipped overflowError : Bool) (n length : Int) (st : Loop) : Res Loop :=
  if !clipped then .ok st
  else if overflowError then (interval n length).bind fun _ => .ok { st with error := true }
  else if st.warned then .ok st
  else (interval n length).bind fun _ => .ok { st with warned := true }

/-- The loop over channels and samples, audiofilters.cpp:489-511, 536-558, 577-584, 663-684, 730-751, 792-800.  `todo` lists the
cells (index of the output channel, position) in the order in which they are computed, `f` is the value of a cell and whether
it was clipped, `chan` the channel of the output frame it is written to. -/
def sampleLoop (overflowError : Bool) (n length : Int) (f : Nat → Nat → Res (Int × Bool)) (chan : Nat → Nat) :
    List (Nat × Nat) → Loop → Res Loop
  | [], st => .ok st
  | (c, i) :: rest, st => do
    let r ← f c i
    let st ← reportClip r.2 overflowError n length st
    sampleLoop overflowError n length f chan rest
      { st with ch := fun c' i' => if c' = chan c ∧ i' = i then some r.1 else st.ch c' i' }

/-- Channels outside, positions inside: the order of AudioGain. -/
def byChannel (numChannels length : Nat) : List (Nat × Nat) :=
  (List.range numChannels).flatMap fun c => (List.range length).map fun i => (c, i)

/-- Positions outside, channels inside: the order of AudioMix. -/
def byPosition (numChannels length : Nat) : List (Nat × Nat) :=
  (List.range length).flatMap fun i => (List.range numChannels).map fun c => (c, i)

/-- Reading a sample; one that was never written is undefined behaviour. -/
def readSample (src : AFrame Int) (c i : Nat) : Res Int :=
  match src.ch c i with
  | some v => .ok v
  | none => .ub

/-- `d->gain[(d->gain.size() > 1) ? p : 0]`, audiofilters.cpp:490, 537, 578. -/
def gainOf (gains : List Nat) (c : Nat) : Res Nat :=
  match gains[if gains.length > 1 then c else 0]? with
  | some g => .ok g
  | none => .ub

/-- A sample of AudioGain, audiofilters.cpp:490-509, 537-556, 578-582. -/
def gainSample (F : DFloats) (fmt : AudioFormat) (gains : List Nat) (src : AFrame Int) (c i : Nat) : Res (Int × Bool) := do
  let g ← gainOf gains c
  let x ← readSample src c i
  if fmt.bytesPerSample = 4 ∧ fmt.sampleType = 1 then pure (F.gainF g x, false)
  else do
    let q := quantizeIntSample F (Dbl.mul F (.fin x) (Dbl.ofBits g)) (intSampleRange fmt)
    let v ← q.1.toInt fmt.bytesPerSample
    pure (v, q.2)

/-- What the end of the get frame functions returns: `setFilterError` was called and no frame is returned, or the frame;
audiofilters.cpp:515-518, 562-565, 690-693, 757-760. -/
def finish (name : String) (n length : Int) (fmt : AudioFormat) (st : Loop) : Res (AFrame Int) :=
  if st.error then
    .err (name ++ ": clipping detected in the sample interval " ++ toString (n * SAMPLES) ++ " to " ++ toString (n * SAMPLES + length - 1))
  else .ok ⟨fmt, length, st.ch⟩

/-- `audioGainGetFrame16`, `audioGainGetFrame32`, `audioGainGetFrameF`, audiofilters.cpp:477-590.  `warned n` is the value of
`overflowWarned` when frame `n` is made: other frames may have set it. -/
def gainFilter (F : DFloats) (ai : AudioInfo) (gains : List Nat) (overflowError : Bool) (warned : Int → Bool) : AFilter Int where
  ai := ai
  initial n := .ok [(0, n)]
  ready n fetch := do
    let src ← deref (fetch 0 n)
    let dst ← newAudioFrame (α := Int) ai.format src.len
    let st ← sampleLoop overflowError n src.len (gainSample F ai.format gains src) (fun c => c)
      (byChannel ai.format.numChannels src.len.toNat) ⟨dst.ch, warned n, false⟩
    finish "AudioGain" n src.len ai.format st

/-- `audioGainCreate`, audiofilters.cpp:594-619; `gains` are the bits of the values of `gain`. -/
def audioGainCreate (F : DFloats) (clip : AClip Int) (gains : List Nat) (overflowError : Option Int) (warned : Int → Bool) :
    Res (AClip Int) :=
  if gains.length ≠ 1 ∧ gains.length ≠ clip.ai.format.numChannels then
    .err "AudioGain: must provide one gain value per channel or a single value used for all channels"
  else createAudioFilter (gainFilter F clip.ai gains (decide (overflowError.getD 0 ≠ 0)) warned) [clip]

/-! ## AudioMix -/

/-- `AudioMixDataNode`, audiofilters.cpp:624-629; `node` is the index into the clip list. `numFrames` is never read. -/
structure MixNode where
  node : Nat
  idx : Nat
  weights : List Nat
  deriving Repr

/-- The sources: every channel of every clip, audiofilters.cpp:846-853. -/
def mixSources (formats : List AudioFormat) : List (Nat × Nat) :=
  (formats.zipIdx).flatMap fun p => (List.range p.1.numChannels).map fun j => (p.2, j)

/-- `channelLayout` of the given channels, audiofilters.cpp:827-832; `none` = a number out of range. -/
def mixLayout : List Int → Nat → Option Nat
  | [], l => some l
  | c :: rest, l =>
    let channel := int64ToIntS c
    if channel < 0 ∨ channel ≥ 64 then none else mixLayout rest (l ||| (1 <<< channel.toNat))

/-- `outputIdx`, audiofilters.cpp:834-842. -/
def mixOutputIdx (outs : List Int) (layout : Nat) : List Nat := outs.map fun c => chanIndex layout (int64ToIntS c).toNat

/-- The weights of source `i`, audiofilters.cpp:883-884; the matrix has the right size. -/
def mixWeights (matrix : List Nat) (numDst numSrc i : Nat) : List Nat :=
  (List.range numDst).map fun j => matrix.getD (j * numSrc + i) 0

/-- The sources with their samples and weights for one output sample: `srcPtrs[srcIdx][i]` and
`sourceNodes[srcIdx].weights[dstIdx]`, audiofilters.cpp:667-668. -/
def mixTerms (srcs : List (AFrame Int × MixNode)) (dstIdx i : Nat) : Res (List (Int × Nat)) :=
  match srcs with
  | [] => .ok []
  | s :: rest => do
    let x ← readSample s.1 s.2.idx i
    match s.2.weights[dstIdx]? with
    | none => .ub
    | some w => do
      let r ← mixTerms rest dstIdx i
      pure ((x, w) :: r)

/-- The sum of one output sample, audiofilters.cpp:666-668, 733-735. -/
def mixSum (F : DFloats) (terms : List (Int × Nat)) : Dbl :=
  terms.foldl (fun t p => Dbl.mac F t (.fin p.1) (Dbl.ofBits p.2)) (.fin 0)

/-- A sample of AudioMix, audiofilters.cpp:665-683, 732-750, 794-799. -/
def mixSample (F : DFloats) (fmt : AudioFormat) (srcs : List (AFrame Int × MixNode)) (dstIdx i : Nat) : Res (Int × Bool) := do
  let terms ← mixTerms srcs dstIdx i
  if fmt.sampleType = 1 then pure (F.mixF terms, false)
  else do
    let q := quantizeIntSample F (mixSum F terms) (intSampleRange fmt)
    let v ← q.1.toInt fmt.bytesPerSample
    pure (v, q.2)

/-- The frames of all sources, audiofilters.cpp:650-654. -/
def mixFetch (n : Int) (fetch : Nat → Int → Option (AFrame Int)) : List MixNode → Res (List (AFrame Int × MixNode))
  | [] => .ok []
  | s :: rest => do
    let f ← deref (fetch s.node n)
    let r ← mixFetch n fetch rest
    pure ((f, s) :: r)

/-- `audioMixGetFrame16`, `audioMixGetFrame32`, `audioMixGetFrameF`, audiofilters.cpp:640-808. -/
def mixFilter (F : DFloats) (ai : AudioInfo) (nodes : List MixNode) (outputIdx : List Nat) (overflowError : Bool)
    (warned : Int → Bool) : AFilter Int where
  ai := ai
  initial n := .ok ((nodes.map (·.node)).map (fun i => (i, n)))
  ready n fetch := do
    let srcs ← mixFetch n fetch nodes
    match srcs with
    | [] => .ub
    | s0 :: _ =>
      let length := s0.1.len
      let dst ← newAudioFrame (α := Int) ai.format length
      if outputIdx.length < ai.format.numChannels then .ub
      else do
        let st ← sampleLoop overflowError n length (mixSample F ai.format srcs) (fun c => outputIdx.getD c 0)
          (byPosition ai.format.numChannels length.toNat) ⟨dst.ch, warned n, false⟩
        finish "AudioMix" n length ai.format st

/-- `audioMixCreate`, audiofilters.cpp:819-909.  `clips` is not empty (argument `anode[]`).  A failed format query replaces an
earlier error message by its own (lines 888-891); which message is reported is not modelled, only that there is one. -/
def audioMixCreate (F : DFloats) (clips : List (AClip Int)) (matrix : List Nat) (outs : List Int) (overflowError : Option Int)
    (warned : Int → Bool) : Res (AClip Int) :=
  match mixLayout outs 0 with
  | none => .err "AudioMix: channel number out of range (0-63)"
  | some layout =>
    let sources := mixSources (clips.map (·.ai.format))
    if clips.length > sources.length then .err "AudioMix: cannot have more input nodes than selected input channels"
    else (i32 ((outs.length : Int) * sources.length)).bind fun size =>
      if size ≠ matrix.length then
        .err "AudioMix: the number of matrix weights must equal (input channels * output channels)"
      else match sources.head? with
        | none => .ub
        | some s0 => match clips[s0.1]? with
          | none => .ub
          | some c0 =>
            if clips.any (fun c => decide (c.ai.numSamples ≠ c0.ai.numSamples ∨ c.ai.sampleRate ≠ c0.ai.sampleRate ∨
                c.ai.format.bitsPerSample ≠ c0.ai.format.bitsPerSample ∨ c.ai.format.sampleType ≠ c0.ai.format.sampleType)) then
              .err "AudioMix: all inputs must have the same length, samplerate, bits per sample and sample type"
            else match queryAudioFormat c0.ai.format.sampleType c0.ai.format.bitsPerSample layout with
              | none => .err "AudioMix: invalid output channel configuration"
              | some fmt =>
                if fmt.numChannels ≠ outs.length then .err "AudioMix: output channel specified twice"
                else createAudioFilter
                  (mixFilter F { c0.ai with format := fmt }
                    (sources.zipIdx.map fun p => ⟨p.1.1, p.1.2, mixWeights matrix outs.length sources.length p.2⟩)
                    (mixOutputIdx outs layout) (decide (overflowError.getD 0 ≠ 0)) warned) clips

end VS.Gain
