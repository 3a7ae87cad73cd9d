import Verif.Gain.Model
import Verif.Audio.Model

/-!
# AudioResample

Model of src/core/audioresampling.cpp.  Integer samples are the values of the container (`int16_t`, `int32_t`), float samples are
bit patterns; both are `Int` here.  Left out: the values of the filter coefficients (`RFloats.tap`), the single precision
arithmetic of mixing and filtering (`RFloats.macF`, `RFloats.filtF`), the log message about clipping and frame properties.
-/

namespace VS.Resample
open VS VS.Audio VS.Gain

/-- The floating point arithmetic of the machine.  Nothing is assumed about the functions added here. -/
structure RFloats extends DFloats where
  /-- `static_cast<float>` of a `double`: the bits -/
  toF32 : Dbl → Int
  /-- `row[i] += weight * scratch[i]` in `float`, audioresampling.cpp:691: bits of `row[i]`, `weight`, `scratch[i]` -/
  macF : Int → Int → Int → Int
  /-- `acc += window[j] * coeff[j]` over all taps and `static_cast<float>(acc)`, audioresampling.cpp:714-717: bits of the
  samples and coefficients -/
  filtF : List (Int × Int) → Int
  /-- the bits of coefficient `j` of a phase, audioresampling.cpp:275-302: `p`, `q`, `halfTaps`, phase, `j` -/
  tap : Int → Int → Int → Int → Nat → Int

/-- `DitherType`, audioresampling.cpp:38-42. -/
inductive DitherType where
  | none | rectangular | triangular
  deriving DecidableEq, Repr

/-- `ditherMix`, audioresampling.cpp:50-57. -/
def ditherMix (x : UInt64) : UInt64 :=
  let x := x ^^^ (x >>> 30)
  let x := x * 0xBF58476D1CE4E5B9
  let x := x ^^^ (x >>> 27)
  let x := x * 0x94D049BB133111EB
  x ^^^ (x >>> 31)

/-- The hash of a position, audioresampling.cpp:65. -/
def ditherHash (pos : Int) (channel : Nat) : UInt64 :=
  ditherMix (UInt64.ofInt pos + (UInt64.ofNat channel + 1) * 0x9E3779B97F4A7C15)

/-- `ditherValue`, audioresampling.cpp:60-73.  The differences of multiples of 2^-32 below 1 are exact in `double`. -/
def ditherValue (dt : DitherType) (pos : Int) (channel : Nat) : Rat :=
  let h := ditherHash pos channel
  let u1 : Rat := (h.toUInt32.toNat : Rat) / 2 ^ 32
  match dt with
  | .none => 0
  | .rectangular => u1 - 1 / 2
  | .triangular => u1 - ((h >>> 32).toUInt32.toNat : Rat) / 2 ^ 32

/-- The number with this bit pattern in IEEE single precision, as a `double`. -/
def f32 (bits : Int) : Dbl :=
  let b := bits.toNat % 2 ^ 32
  let e : Nat := b / 2 ^ 23 % 256
  let m : Nat := b % 2 ^ 23
  let neg := b / 2 ^ 31 % 2 = 1
  if e = 255 then (if m = 0 then .inf (decide neg) else .nan)
  else
    let a : Rat := if e = 0 then m / 2 ^ 149 else if e < 150 then (2 ^ 23 + m) / 2 ^ (150 - e) else (2 ^ 23 + m) * 2 ^ (e - 150)
    .fin (if neg then -a else a)

/-- `static_cast<double>(src[i])` for samples of a format, audioresampling.cpp:104, 114, 145-152. -/
def srcValue (f : AudioFormat) (x : Int) : Dbl := if f.sampleType = 1 then f32 x else .fin x

/-- `containerBits`, audioresampling.cpp:157-159. -/
def containerBits (f : AudioFormat) : Nat := 8 * f.bytesPerSample.toNat

/-- `formatToNorm`, audioresampling.cpp:163-165. -/
def formatToNorm (f : AudioFormat) : Rat := if f.sampleType = 1 then 1 else 1 / 2 ^ (containerBits f - 1)

/-- `normToFormat`, audioresampling.cpp:169-171. -/
def normToFormat (f : AudioFormat) : Rat := if f.sampleType = 1 then 1 else 2 ^ (f.bitsPerSample - 1).toNat

/-- `formatOutputShift`, audioresampling.cpp:173-175. -/
def formatOutputShift (f : AudioFormat) : Rat := if f.sampleType = 1 then 1 else 2 ^ (containerBits f - f.bitsPerSample.toNat)

/-- `d->mul`, audioresampling.cpp:554: a product of powers of two. -/
def scale (working dst : AudioFormat) : Rat := formatToNorm working * normToFormat dst

/-- `d->minV` and `d->maxV`, audioresampling.cpp:557-560. -/
def limits (dst : AudioFormat) : Rat × Rat := (-2 ^ (dst.bitsPerSample - 1).toNat, 2 ^ (dst.bitsPerSample - 1).toNat - 1)

/-- One sample of `convertPlane`, audioresampling.cpp:101-110, 113-114: the value and `clipped`. -/
def convertSample (F : RFloats) (working dst : AudioFormat) (dt : DitherType) (pos : Int) (channel : Nat) (x : Int) :
    Res (Int × Bool) :=
  if dst.sampleType = 1 then .ok (F.toF32 (Dbl.mul F.toDFloats (srcValue working x) (.fin (scale working dst))), false)
  else do
    let rounded := (Dbl.mac F.toDFloats (.fin (ditherValue dt pos channel)) (srcValue working x) (.fin (scale working dst))).round
    let limited := rounded.clamp (limits dst).1 (limits dst).2
    let v ← (limited.mul F.toDFloats (.fin (formatOutputShift dst))).toInt dst.bytesPerSample
    pure (v, limited.ne rounded)

/-- `needsDither` and `resolveDither`, audioresampling.cpp:179-192. -/
def resolveDither (requested : DitherType) (working dst : AudioFormat) : DitherType :=
  if dst.sampleType ≠ 0 then .none
  else if working.sampleType = 1 then requested
  else if working.bitsPerSample > dst.bitsPerSample then requested
  else .none

/-- `floatWorkingFormat`, audioresampling.cpp:195-201. -/
def floatFormat : AudioFormat := ⟨1, 32, 4, 0, 0⟩

/-- A loop that computes `n` values, `f i` the value number `i`. -/
def tab {α : Type} : (n : Nat) → (Nat → Res α) → Res (List α)
  | 0, _ => .ok []
  | n + 1, f => do
    let l ← tab n f
    let x ← f n
    pure (l ++ [x])

/-- `convertPlane` for one channel, audioresampling.cpp:91-117: `read` gives the source samples. -/
def convertPlane (F : RFloats) (working dst : AudioFormat) (dt : DitherType) (read : Nat → Res Int) (length : Nat) (positionBase : Int)
    (channel : Nat) : Res (List Int × Bool) := do
  let l ← tab length fun i => do
    let x ← read i
    let pos ← i64 (positionBase + i)
    convertSample F working dst dt pos channel x
  pure (l.map (·.1), l.any (·.2))

/-- The loop over the output channels, audioresampling.cpp:599-600, 699-730: buffers and `clipped`. -/
def outLoop (f : Nat → Res (List Int × Bool)) : List Nat → Bufs Int × Bool → Res (Bufs Int × Bool)
  | [], st => .ok st
  | oc :: rest, st => do
    let r ← f oc
    outLoop f rest ⟨fun c i => if c = oc ∧ i < r.1.length then r.1[i]? else st.1 c i, st.2 || r.2⟩

/-- The end of the get frame functions with `reportClipping`, audioresampling.cpp:571-582, 604-607, 735-738. -/
def finish (overflowError : Bool) (startSample length : Int) (fmt : AudioFormat) (st : Bufs Int × Bool) : Res (AFrame Int) :=
  if st.2 ∧ overflowError then
    .err ("AudioResample: clipping detected in the sample interval " ++ toString startSample ++ " to " ++ toString (startSample + length - 1))
  else .ok ⟨fmt, length, st.1⟩

/-- `audioResampleGetFrame`, audioresampling.cpp:585-611. -/
def formatFilter (F : RFloats) (src : AudioFormat) (ai : AudioInfo) (dt : DitherType) (overflowError : Bool) : AFilter Int where
  ai := ai
  initial n := .ok [(0, n)]
  ready n fetch := do
    let s ← deref (fetch 0 n)
    let dst ← newAudioFrame (α := Int) ai.format s.len
    let r ← outLoop (fun c => convertPlane F src ai.format dt (readSample s c) s.len.toNat (n * SAMPLES) c)
      (List.range ai.format.numChannels) (dst.ch, false)
    finish overflowError (n * SAMPLES) s.len ai.format r

/-! ## Resampling -/

/-- `gcd64`, audioresampling.cpp:228-235, for rates, which are positive. -/
def gcd64 (a b : Nat) : Nat := if _h : b = 0 then a else gcd64 b (a % b)
termination_by b
decreasing_by exact Nat.mod_lt _ (Nat.pos_of_ne_zero _h)

/-- `ResampleBank` without the coefficients, audioresampling.cpp:218-226. -/
structure Bank where
  p : Int
  q : Int
  baseStep : Int
  phaseStep : Int
  halfTaps : Int
  tapCount : Int
  deriving Repr

/-- `buildResampleBank`, audioresampling.cpp:257-305.  The conversion of a `double` that is no `int` is undefined. -/
def buildBank (F : RFloats) (inRate outRate : Int) : Res Bank := do
  let g : Int := gcd64 inRate.toNat outRate.toNat
  let p := outRate.tdiv g
  let q := inRate.tdiv g
  let ratio : Rat := min 1 (F.rnd (p / q))
  let halfTaps ← i32 (F.rnd (64 / ratio)).ceil
  let tapCount ← i32 (2 * halfTaps)
  if tapCount > 8192 then
    .err "AudioResample: the sample rate ratio requires an impractically long filter, convert in several steps instead"
  else if p * tapCount * 4 > 33554432 then
    .err "AudioResample: the sample rate ratio reduces to a fraction with too many phases to build a filter for"
  else pure ⟨p, q, q.tdiv p, q.tmod p, halfTaps, tapCount⟩

/-- `floorDiv`, audioresampling.cpp:308-313. -/
def floorDiv (a b : Int) : Int := if a.tmod b ≠ 0 ∧ a < 0 then a.tdiv b - 1 else a.tdiv b

/-- `AudioResampleDataExtra`, audioresampling.cpp:526-545, as far as `audioResampleGetFrameFloat` reads it.  `bank = none`:
`doResample` is false; `weights = none`: `mix.weights` is empty. -/
structure Data where
  ai : AudioInfo
  src : AudioFormat
  srcNumFrames : Int
  bank : Option Bank
  weights : Option (Nat → Nat → Int)
  silent : Nat → Bool
  dither : DitherType
  overflowError : Bool

/-- The values computed at the start of `audioResampleGetFrameFloat`, audioresampling.cpp:621-643. -/
structure Span where
  firstOut : Int
  outCount : Int
  firstBase : Int
  firstPhase : Int
  firstIn : Int
  lastIn : Int
  deriving Repr

/-- audioresampling.cpp:621-640. -/
def Data.span (d : Data) (n : Int) : Res Span := do
  let firstOut ← i64 (n * SAMPLES)
  let outCount ← i32 (min SAMPLES (d.ai.numSamples - firstOut))
  match d.bank with
  | some b => do
    let firstPos ← i64 (firstOut * b.q)
    let lastPos ← i64 ((firstOut + outCount - 1) * b.q)
    if b.p = 0 then .ub
    else do
      let firstIn ← i64 (firstPos.tdiv b.p - b.halfTaps + 1)
      let lastIn ← i64 (lastPos.tdiv b.p + b.halfTaps)
      pure ⟨firstOut, outCount, firstPos.tdiv b.p, firstPos.tmod b.p, firstIn, lastIn⟩
  | none => pure ⟨firstOut, outCount, 0, 0, firstOut, firstOut + outCount - 1⟩

/-- `firstInFrame`, audioresampling.cpp:642. -/
def Span.firstFrame (s : Span) : Int := max (floorDiv s.firstIn SAMPLES) 0

/-- The number of frames of the loops over `f`, audioresampling.cpp:643, 646, 651. -/
def Span.frames (s : Span) (srcNumFrames : Int) : Nat :=
  (min (floorDiv s.lastIn SAMPLES) (srcNumFrames - 1) - s.firstFrame + 1).toNat

/-- `d->gather` for one sample: conversion to normalized `float`, audioresampling.cpp:865-869. -/
def gatherSample (F : RFloats) (src : AudioFormat) (x : Int) : Int :=
  F.toF32 (Dbl.mul F.toDFloats (srcValue src x) (.fin (formatToNorm src)))

/-- The loop of `gatherChannel`, audioresampling.cpp:671-677; `row` is `dstRow` so far.  Leaving `dstRow` or reading a sample
that was never written is undefined. -/
def gatherLoop (F : RFloats) (src : AudioFormat) (c : Nat) (firstFrame firstIn inCount : Int) :
    (k : Nat) → List (AFrame Int) → (Nat → Int) → Res (Nat → Int)
  | _, [], row => .ok row
  | k, f :: rest, row =>
    let frameStart := (firstFrame + k) * SAMPLES
    let lo := max frameStart firstIn
    let hi := min (frameStart + f.len) (firstIn + inCount)
    if lo < hi then
      if lo - firstIn < 0 ∨ hi - firstIn > inCount then .ub
      else do
        let l ← tab (hi - lo).toNat fun i => do
          let x ← readSample f c ((lo - frameStart).toNat + i)
          pure (gatherSample F src x)
        gatherLoop F src c firstFrame firstIn inCount (k + 1) rest fun i =>
          if (lo - firstIn).toNat ≤ i ∧ i < (hi - firstIn).toNat then l.getD (i - (lo - firstIn).toNat) 0 else row i
    else gatherLoop F src c firstFrame firstIn inCount (k + 1) rest row

/-- `weight == 0.0f`, audioresampling.cpp:687: both zeros. -/
def isZero32 (w : Int) : Bool := decide (w = 0 ∨ w = 2 ^ 31)

/-- The mixing loop, audioresampling.cpp:683-693; all output channels and positions at once. -/
def mixLoop (F : RFloats) (w : Nat → Nat → Int) (gather : Nat → Res (Nat → Int)) : List Nat → (Nat → Nat → Int) → Res (Nat → Nat → Int)
  | [], rows => .ok rows
  | ic :: rest, rows => do
    let scratch ← gather ic
    mixLoop F w gather rest fun oc i => if isZero32 (w oc ic) then rows oc i else F.macF (rows oc i) (w oc ic) (scratch i)

/-- `rows`, audioresampling.cpp:680-697. -/
def makeRows (F : RFloats) (weights : Option (Nat → Nat → Int)) (numIn numOut : Nat) (gather : Nat → Res (Nat → Int)) :
    Res (Nat → Nat → Int) :=
  match weights with
  | some w => mixLoop F w gather (List.range numIn) fun _ _ => 0
  | none => do
    let l ← tab numOut gather
    pure fun oc => l.getD oc fun _ => 0

/-- The filter loop for one channel, audioresampling.cpp:709-725; `todo` samples are left.  Leaving the row or the coefficients is
undefined. -/
def filterLoop (F : RFloats) (b : Bank) (firstIn inCount : Int) (mixed : Nat → Int) : (todo : Nat) → (base phase : Int) → Res (List Int)
  | 0, _, _ => .ok []
  | todo + 1, base, phase => do
    let off := base - b.halfTaps + 1 - firstIn
    if phase < 0 ∨ phase ≥ b.p ∨ off < 0 ∨ off + b.tapCount > inCount then .ub
    else do
      let v := F.filtF ((List.range b.tapCount.toNat).map fun j => (mixed (off.toNat + j), F.tap b.p b.q b.halfTaps phase j))
      let base ← i64 (base + b.baseStep)
      let phase ← i64 (phase + b.phaseStep)
      let rest ← if phase ≥ b.p then filterLoop F b firstIn inCount mixed todo (base + 1) (phase - b.p)
        else filterLoop F b firstIn inCount mixed todo base phase
      pure (v :: rest)

/-- One output channel, audioresampling.cpp:700-729. -/
def outChannel (F : RFloats) (d : Data) (s : Span) (inCount : Int) (rows : Nat → Nat → Int) (oc : Nat) : Res (List Int × Bool) :=
  if d.silent oc then .ok (List.replicate s.outCount.toNat 0, false)
  else match d.bank with
    | some b => do
      let l ← filterLoop F b s.firstIn inCount (rows oc) s.outCount.toNat s.firstBase s.firstPhase
      convertPlane F floatFormat d.ai.format d.dither (fun i => match l[i]? with | some v => .ok v | none => .ub)
        s.outCount.toNat s.firstOut oc
    | none => convertPlane F floatFormat d.ai.format d.dither (fun i => .ok (rows oc i)) s.outCount.toNat s.firstOut oc

/-- `audioResampleGetFrameFloat`, audioresampling.cpp:617-742. -/
def floatFilter (F : RFloats) (d : Data) : AFilter Int where
  ai := d.ai
  initial n := do
    let s ← d.span n
    pure ((List.range (s.frames d.srcNumFrames)).map fun k : Nat => (0, s.firstFrame + k))
  ready n fetch := do
    let s ← d.span n
    let frames ← tab (s.frames d.srcNumFrames) fun k => deref (fetch 0 (s.firstFrame + k))
    let dst ← newAudioFrame (α := Int) d.ai.format s.outCount
    let inCount ← i32 (s.lastIn - s.firstIn + 1)
    let rows ← makeRows F d.weights d.src.numChannels d.ai.format.numChannels fun c =>
      gatherLoop F d.src c s.firstFrame s.firstIn inCount 0 frames fun _ => 0
    let r ← outLoop (outChannel F d s inCount rows) (List.range d.ai.format.numChannels) (dst.ch, false)
    finish d.overflowError s.firstOut s.outCount d.ai.format r

/-! ## The mixing matrix -/

/-- `mixLevelCenter` and `mixLevelSurround`, audioresampling.cpp:325-326: the `double` next to the square root of 1/2. -/
def level : Rat := 6369051672525773 / 2 ^ 53

/-- `groundEquivalent`, audioresampling.cpp:339-356; the channel numbers are those of include/VapourSynth4.h:198-224. -/
def groundEquivalent (channel : Nat) : Nat :=
  match channel with
  | 12 | 31 | 29 => 0
  | 14 | 32 | 30 => 1
  | 13 | 11 => 2
  | 15 | 33 => 4
  | 17 | 34 => 5
  | 16 => 8
  | c => c

/-- `foldSurround`, audioresampling.cpp:383-390. -/
def foldSurround (F : RFloats) (has : Nat → Bool) (alt front : Nat) : List (Nat × Rat) :=
  if has alt then [(alt, 1)]
  else if has front then [(front, level)]
  else if has 2 then [(2, F.rnd (level * level))]
  else []

/-- The calls of `add` for an input channel, audioresampling.cpp:393-483: output channels and weights. -/
def foldChannel (F : RFloats) (has : Nat → Bool) (channel : Nat) : List (Nat × Rat) :=
  if has channel then [(channel, 1)]
  else
    let channel := groundEquivalent channel
    if has channel then [(channel, 1)]
    else match channel with
      | 2 =>
        if has 0 && has 1 then [(0, level), (1, level)]
        else if has 0 then [(0, level)]
        else if has 1 then [(1, level)]
        else []
      | 0 => if has 2 then [(2, level)] else if has 1 then [(1, level)] else []
      | 1 => if has 2 then [(2, level)] else if has 0 then [(0, level)] else []
      | 4 => foldSurround F has 9 0
      | 9 => foldSurround F has 4 0
      | 5 => foldSurround F has 10 1
      | 10 => foldSurround F has 5 1
      | 8 =>
        if has 4 && has 5 then [(4, level), (5, level)]
        else if has 9 && has 10 then [(9, level), (10, level)]
        else if has 0 && has 1 then [(0, F.rnd (level * level)), (1, F.rnd (level * level))]
        else if has 2 then [(2, level)]
        else []
      | 6 => if has 0 && has 2 then [(0, level), (2, level)] else if has 0 then [(0, 1)] else if has 2 then [(2, 1)] else []
      | 7 => if has 1 && has 2 then [(1, level), (2, level)] else if has 1 then [(1, 1)] else if has 2 then [(2, 1)] else []
      | 3 => if has 35 then [(35, 1)] else []
      | 35 => if has 3 then [(3, 1)] else []
      | _ => []

/-- `m[o * numIn + i]` before normalization, audioresampling.cpp:369-378, 392-484: `out` the output channel `o`, `channel` the input
channel `i`.  `add` sums up in `double`, starting from 0. -/
def mixEntry (F : RFloats) (outLayout : Nat) (out channel : Nat) : Rat :=
  (foldChannel F outLayout.testBit channel).foldl (fun acc p => if p.1 = out then F.rnd (acc + p.2) else acc) 0

/-- `peak`, audioresampling.cpp:490-496. -/
def mixPeak (F : RFloats) (ins outs : List Nat) (m : Nat → Nat → Rat) : Rat :=
  outs.foldl (fun peak o => max peak (ins.foldl (fun sum i => F.rnd (sum + |m o i|)) 0)) 0

/-- `m` after normalization, audioresampling.cpp:489-501; indexed by channel numbers. -/
def mixMatrix (F : RFloats) (inLayout outLayout : Nat) (normalize : Bool) : Nat → Nat → Rat :=
  let m := mixEntry F outLayout
  let peak := mixPeak F (layoutChannels inLayout) (layoutChannels outLayout) m
  if normalize ∧ peak > 1 then fun o i => F.rnd (m o i / peak) else m

/-- `result.weights`, audioresampling.cpp:503-506, by indices. -/
def mixWeights (F : RFloats) (inLayout outLayout : Nat) (normalize : Bool) (oc ic : Nat) : Int :=
  F.toF32 (.fin (mixMatrix F inLayout outLayout normalize ((layoutChannels outLayout).getD oc 0) ((layoutChannels inLayout).getD ic 0)))

/-- `result.silentRows`, audioresampling.cpp:508-514. -/
def silentRow (F : RFloats) (inLayout outLayout : Nat) (normalize : Bool) (oc : Nat) : Bool :=
  (layoutChannels inLayout).all fun i => decide (mixMatrix F inLayout outLayout normalize ((layoutChannels outLayout).getD oc 0) i = 0)

/-! ## Creation -/

/-- The arguments of AudioResample. -/
structure Args where
  samplerate : Option Int := none
  channels : List Int := []
  sampletype : Option Int := none
  bits : Option Int := none
  dither : Option String := none
  normalize : Option Int := none
  overflowError : Option Int := none

/-- The loop over `channels`, audioresampling.cpp:771-779. -/
def parseChannels : List Int → Nat → Res Nat
  | [], l => .ok l
  | c :: rest, l =>
    if c < 0 ∨ c ≥ 64 then .err "AudioResample: channel number out of range (0-63)"
    else if l.testBit c.toNat then .err "AudioResample: channel specified twice"
    else parseChannels rest (l ||| (1 <<< c.toNat))

/-- `dither_type`, audioresampling.cpp:791-802. -/
def parseDither : Option String → Res DitherType
  | none => .ok .triangular
  | some s =>
    if s = "none" then .ok .none
    else if s = "rectangular" then .ok .rectangular
    else if s = "triangular" then .ok .triangular
    else .err "AudioResample: invalid dither_type, must be none, rectangular or triangular"

/-- `samplerate`, audioresampling.cpp:761-763. -/
def argRate (a : Args) (src : AudioInfo) : Int :=
  match a.samplerate with
  | some r => int64ToIntS r
  | none => src.sampleRate

/-- `channels`, audioresampling.cpp:767-779. -/
def argLayout (a : Args) (src : AudioInfo) : Res Nat :=
  if a.channels.length > 0 then parseChannels a.channels 0 else .ok src.format.channelLayout

/-- `sampletype`, audioresampling.cpp:781-784. -/
def argType (a : Args) (src : AudioInfo) : Int :=
  match a.sampletype with
  | some t => if t ≠ 0 then 1 else 0
  | none => src.format.sampleType

/-- `bits`, audioresampling.cpp:786-788. -/
def argBits (a : Args) (src : AudioInfo) (st : Int) : Int :=
  match a.bits with
  | some b => int64ToIntS b
  | none => if st = 1 then 32 else src.format.bitsPerSample

/-- `parseAudioResampleArgs`, audioresampling.cpp:758-809: rate, layout, sample type, bits, dither. -/
def parseArgs (a : Args) (src : AudioInfo) : Res (Int × Nat × Int × Int × DitherType) :=
  if argRate a src < 1 then .err "AudioResample: samplerate must be positive"
  else do
    let layout ← argLayout a src
    let dt ← parseDither a.dither
    pure (argRate a src, layout, argType a src, argBits a src (argType a src), dt)

/-- The output length, audioresampling.cpp:848-853. -/
def outSamples (b : Bank) (numSamples : Int) : Res Int :=
  if numSamples > (INT64_MAX - b.q + 1).tdiv b.p then .err "AudioResample: clip is too long to resample by this ratio"
  else do
    let x ← i64 (numSamples * b.p)
    let y ← i64 (x + b.q)
    let numOut := (y - 1).tdiv b.q
    if numOut < 1 ∨ numOut > INT_MAX * SAMPLES then .err "AudioResample: the resampled clip length is out of range"
    else pure numOut

/-- `audioResampleCreate`, audioresampling.cpp:811-883. -/
def audioResampleCreate (F : RFloats) (clip : AClip Int) (a : Args) : Res (AClip Int) := do
  let (rate, layout, st, bits, dt) ← parseArgs a clip.ai
  match queryAudioFormat st bits layout with
  | none => .err "AudioResample: invalid output format specified"
  | some fmt =>
    let doResample := decide (rate ≠ clip.ai.sampleRate)
    let mixing := decide (layout ≠ clip.ai.format.channelLayout)
    let formatChanged := decide (fmt.sampleType ≠ clip.ai.format.sampleType ∨ fmt.bitsPerSample ≠ clip.ai.format.bitsPerSample)
    let oe := decide (a.overflowError.getD 0 ≠ 0)
    if !doResample && !mixing && !formatChanged then .ok clip
    else if doResample || mixing then do
      let (bank, ns) ← if doResample then do
          let b ← buildBank F clip.ai.sampleRate rate
          let ns ← outSamples b clip.ai.numSamples
          pure (some b, ns)
        else pure (none, clip.ai.numSamples)
      let normalize := match a.normalize with
        | some v => decide (v ≠ 0)
        | none => decide (fmt.sampleType = 0)
      createAudioFilter (floatFilter F
        { ai := { format := fmt, sampleRate := rate, numSamples := ns, numFrames := clip.ai.numFrames }
          src := clip.ai.format
          srcNumFrames := clip.ai.numFrames
          bank := bank
          weights := if mixing then some (mixWeights F clip.ai.format.channelLayout layout normalize) else none
          silent := if mixing then silentRow F clip.ai.format.channelLayout layout normalize else fun _ => false
          dither := resolveDither dt floatFormat fmt
          overflowError := oe }) [clip]
    else createAudioFilter (formatFilter F clip.ai.format { clip.ai with format := fmt, sampleRate := rate }
      (resolveDither dt clip.ai.format fmt) oe) [clip]

end VS.Resample
