import Verif.Base.C

/-!
# Audio nodes and the audio editing filters

Model of src/core/audiofilters.cpp (AudioTrim, AudioSplice, AudioLoop, AudioReverse, ShuffleChannels,
SplitChannels, AssumeSampleRate, the silent part of BlankAudio) and of the parts of the node code they rest on.

A frame buffer has room for 3072 samples per channel whatever its length; positions that were never
written are `none`, so using unwritten memory is visible.  Offsets are counted in samples: every
offset in the code is a multiple of `bytesPerSample`.
-/

namespace VS.Audio

variable {α : Type}

/-- `VS_AUDIO_FRAME_SAMPLES`, include/VapourSynth4.h. -/
def SAMPLES : Int := 3072

/-- `VSAudioFormat`, include/VapourSynth4.h. -/
structure AudioFormat where
  sampleType : Int
  bitsPerSample : Int
  bytesPerSample : Int
  numChannels : Nat
  channelLayout : Nat
  deriving Repr, DecidableEq

/-- `VSAudioInfo`, include/VapourSynth4.h. -/
structure AudioInfo where
  format : AudioFormat
  sampleRate : Int
  numSamples : Int
  numFrames : Int
  deriving Repr, DecidableEq

/-- `std::bitset<64>{layout}.count()`. -/
def popcount (layout : Nat) : Nat := (List.range 64).countP layout.testBit

/-- `VSCore::isValidAudioFormat(int, int, uint64_t)`, src/core/vscore.cpp:1552-1566. -/
def isValidFormatArgs (sampleType bitsPerSample : Int) (channelLayout : Nat) : Bool :=
  if sampleType ≠ 0 ∧ sampleType ≠ 1 then false
  else if bitsPerSample < 16 ∨ bitsPerSample > 32 then false
  else if sampleType = 1 ∧ bitsPerSample ≠ 32 then false
  else if channelLayout = 0 then false
  else true

/-- `VSCore::isValidAudioFormat(const VSAudioFormat &)`, src/core/vscore.cpp:1568-1582. -/
def isValidAudioFormat (f : AudioFormat) : Bool :=
  if !isValidFormatArgs f.sampleType f.bitsPerSample f.channelLayout then false
  else if f.numChannels ≠ popcount f.channelLayout then false
  else if f.bitsPerSample = 16 ∧ f.bytesPerSample ≠ 2 then false
  else if f.bitsPerSample ≠ 16 ∧ f.bitsPerSample > 16 ∧ f.bytesPerSample ≠ 4 then false
  else true

/-- `VSCore::isValidAudioInfo`, src/core/vscore.cpp:1603-1613. -/
def isValidAudioInfo (ai : AudioInfo) : Bool :=
  if !isValidAudioFormat ai.format then false
  else if ai.numSamples < 1 ∨ ai.sampleRate < 1 then false
  else true

/-- `VSCore::queryAudioFormat`, src/core/vscore.cpp:1408-1426.  The doubling loop ends at 2 for 16 bits and at 4
for 17 to 32 bits. -/
def queryAudioFormat (sampleType bitsPerSample : Int) (channelLayout : Nat) : Option AudioFormat :=
  if !isValidFormatArgs sampleType bitsPerSample channelLayout then none
  else some ⟨sampleType, bitsPerSample, if bitsPerSample ≤ 16 then 2 else 4, popcount channelLayout, channelLayout⟩

/-- `isSameAudioInfo`, include/VSHelper4.h:108-115. -/
def isSameAudioInfo (a b : AudioInfo) : Bool :=
  decide (a.sampleRate = b.sampleRate) && (decide (a.format.bitsPerSample = b.format.bitsPerSample) &&
    decide (a.format.sampleType = b.format.sampleType) && decide (a.format.channelLayout = b.format.channelLayout))

/-- Channel buffers: channel, position; `none` = never written. -/
abbrev Bufs (α : Type) := Nat → Nat → Option α

/-- An audio frame. -/
structure AFrame (α : Type) where
  format : AudioFormat
  len : Int
  ch : Bufs α

/-- `newAudioFrame`, src/core/vscore.cpp:255-278. -/
def newAudioFrame (f : AudioFormat) (numSamples : Int) : Res (AFrame α) :=
  if numSamples ≤ 0 then .fatal "Error in frame creation: bad number of samples"
  else .ok ⟨f, numSamples, fun _ _ => none⟩

/-- `if (!dst) dst = newAudioFrame(...)`, audiofilters.cpp:203-204, 311-312, 950-951. -/
def ensureFrame (dst : Option (AFrame α)) (f : AudioFormat) (numSamples : Int) : Res (AFrame α) :=
  match dst with
  | some d => .ok d
  | none => newAudioFrame f numSamples

/-- The `memcpy` of `n` samples for one channel.  Leaving the 3072 samples of the channel on
either side is treated as undefined. -/
def copyOne (dst : Bufs α) (dc : Nat) (doff : Int) (src : Bufs α) (sc : Nat) (soff n : Int) : Res (Bufs α) :=
  if n < 0 ∨ doff < 0 ∨ soff < 0 ∨ doff + n > SAMPLES ∨ soff + n > SAMPLES then .ub
  else .ok fun c i =>
    if c = dc ∧ doff.toNat ≤ i ∧ i < doff.toNat + n.toNat then src sc (i - doff.toNat + soff.toNat) else dst c i

/-- The loops `for (p = 0; p < numChannels; p++) memcpy(...)` of AudioTrim, AudioSplice and AudioLoop: the same copy in
every channel, all channels at once. -/
def copyAll (numChannels : Nat) (dst : Bufs α) (doff : Int) (src : Bufs α) (soff n : Int) : Res (Bufs α) :=
  if n < 0 ∨ doff < 0 ∨ soff < 0 ∨ doff + n > SAMPLES ∨ soff + n > SAMPLES then .ub
  else .ok fun c i =>
    if c < numChannels ∧ doff.toNat ≤ i ∧ i < doff.toNat + n.toNat then src c (i - doff.toNat + soff.toNat)
    else dst c i

/-- An audio node: what it declares and the outcome of requesting each frame. -/
structure AClip (α : Type) where
  ai : AudioInfo
  frame : Nat → Res (AFrame α)

/-- A filter instance: the two activations.  None of these filters use `frameData`. -/
structure AFilter (α : Type) where
  ai : AudioInfo
  initial : Int → Res (List (Nat × Int))
  ready : Int → (Nat → Int → Option (AFrame α)) → Res (AFrame α)

/-- Frame number clamping, src/core/vsapi.cpp:150-152, 159-161. -/
def clampReq (numFrames n : Int) : Int := if n ≥ numFrames then numFrames - 1 else n

/-- Serving the requests of an activation, src/core/vsapi.cpp:148-154. -/
def serve (clips : List (AClip α)) : List (Nat × Int) → Res (List ((Nat × Int) × AFrame α))
  | [] => .ok []
  | (i, n) :: rest =>
    match clips[i]? with
    | none => .ub
    | some c =>
      let k := clampReq c.ai.numFrames n
      if k < 0 then .ub
      else do
        let f ← c.frame k.toNat
        let r ← serve clips rest
        pure (((i, k), f) :: r)

/-- `getFrameFilter`, src/core/vsapi.cpp:156-171: only frames that were requested are found. -/
def fetchFrom (clips : List (AClip α)) (avail : List ((Nat × Int) × AFrame α)) (i : Nat) (n : Int) : Option (AFrame α) :=
  match clips[i]? with
  | none => none
  | some c => avail.lookup (i, clampReq c.ai.numFrames n)

/-- The length the core expects for frame `n`, src/core/vscore.cpp:1093. -/
def expectedSamples (ai : AudioInfo) (n : Int) : Int :=
  if n < ai.numFrames - 1 then SAMPLES
  else if ai.numSamples.tmod SAMPLES ≠ 0 then ai.numSamples.tmod SAMPLES else SAMPLES

/-- The checks on a returned audio frame, src/core/vscore.cpp:1095-1099. -/
def checkFrame (ai : AudioInfo) (n : Int) (f : AFrame α) : Res (AFrame α) :=
  if ai.format.bitsPerSample ≠ f.format.bitsPerSample ∨ ai.format.sampleType ≠ f.format.sampleType ∨
      ai.format.channelLayout ≠ f.format.channelLayout then
    .fatal "returned a frame that's not of the declared format"
  else if expectedSamples ai n ≠ f.len then .fatal "returned audio frame with the wrong number of samples"
  else .ok f

/-- One frame request. `VSNode::getFrameInternal`, src/core/vscore.cpp:1056-1119. -/
def AFilter.run (f : AFilter α) (ai : AudioInfo) (clips : List (AClip α)) (k : Nat) : Res (AFrame α) := do
  let reqs ← f.initial k
  let avail ← serve clips reqs
  let r ← f.ready k (fetchFrom clips avail)
  checkFrame ai k r

/-- Largest number of samples of a node, src/core/vscore.cpp:808. -/
def MAX_SAMPLES : Int := INT_MAX * SAMPLES

/-- `createAudioFilter`, the audio constructor of `VSNode`, src/core/vscore.cpp:799-834. -/
def createAudioFilter (f : AFilter α) (clips : List (AClip α)) : Res (AClip α) :=
  if !isValidAudioInfo f.ai then .err "The VSAudioInfo structure passed is invalid."
  else if f.ai.numSamples > MAX_SAMPLES then .err "too many output samples"
  else
    let ai := { f.ai with numFrames := (f.ai.numSamples + SAMPLES - 1).tdiv SAMPLES }
    .ok ⟨ai, f.run ai clips⟩

/-- `getFrameFilter` followed by a use of the result: a null pointer is undefined behaviour. -/
def deref : Option (AFrame α) → Res (AFrame α)
  | some f => .ok f
  | none => .ub

/-! ## AudioTrim -/

/-- The values computed at the start of `audioTrimGetframe`, audiofilters.cpp:51-53:
start sample, start frame, length. -/
def trimPos (ai : AudioInfo) (first n : Int) : Res (Int × Int × Int) := do
  let p ← i64 (n * SAMPLES)
  let startSample ← i64 (p + first)
  let startFrame ← i32 (startSample.tdiv SAMPLES)
  let length ← i32 (min (ai.numSamples - n * SAMPLES) SAMPLES)
  pure (startSample, startFrame, length)

/-- `arInitial` part of `audioTrimGetframe`, audiofilters.cpp:55-57, 69-74. -/
def trimInitial (ai : AudioInfo) (first n : Int) : Res (List (Nat × Int)) := do
  let (startSample, startFrame, length) ← trimPos ai first n
  if startSample.tmod SAMPLES = 0 ∧ n ≠ ai.numFrames - 1 then pure [(0, startFrame)]
  else
    let numSrc1Samples := SAMPLES - startSample.tmod SAMPLES
    if numSrc1Samples < length then pure [(0, startFrame), (0, startFrame + 1)] else pure [(0, startFrame)]

/-- `arAllFramesReady` part of `audioTrimGetframe`, audiofilters.cpp:58-67, 75-92.  `ai.numFrames` is the stale value of
the input clip, as in the code. -/
def trimReady (ai : AudioInfo) (first n : Int) (fetch : Nat → Int → Option (AFrame α)) : Res (AFrame α) := do
  let (startSample, startFrame, length) ← trimPos ai first n
  if startSample.tmod SAMPLES = 0 ∧ n ≠ ai.numFrames - 1 then do
    let src ← deref (fetch 0 startFrame)
    if length = src.len then pure src
    else do
      let dst ← newAudioFrame ai.format length
      let ch ← copyAll ai.format.numChannels dst.ch 0 src.ch 0 length
      pure { dst with ch := ch }
  else do
    let numSrc1Samples := SAMPLES - startSample.tmod SAMPLES
    let src1 ← deref (fetch 0 startFrame)
    let dst ← newAudioFrame ai.format length
    let ch ← copyAll ai.format.numChannels dst.ch 0 src1.ch (SAMPLES - numSrc1Samples) numSrc1Samples
    if length > numSrc1Samples then do
      let src2 ← deref (fetch 0 (startFrame + 1))
      let ch ← copyAll ai.format.numChannels ch numSrc1Samples src2.ch 0 (length - numSrc1Samples)
      pure { dst with ch := ch }
    else pure { dst with ch := ch }

/-- AudioTrim instance. -/
def trimFilter (ai : AudioInfo) (first : Int) : AFilter α where
  ai := ai
  initial := trimInitial ai first
  ready := trimReady ai first

/-- Length selected by the arguments, audiofilters.cpp:129-135. -/
def trimLen (first numSamples : Int) (last length : Option Int) : Int :=
  match last with
  | some l => l - first + 1
  | none => match length with
    | some n => n
    | none => numSamples - first

/-- The bounds test, audiofilters.cpp:126: `d->first + length` may overflow. -/
def trimPastEnd (first numSamples : Int) (last length : Option Int) : Res Bool :=
  if last.isSome ∧ last.getD 0 ≥ numSamples then .ok true
  else match length with
    | some n => do
      let e ← i64 (first + n)
      pure (decide (e > numSamples))
    | none => .ok false

/-- `audioTrimCreate`, audiofilters.cpp:97-148. -/
def audioTrimCreate (clip : AClip α) (first last length : Option Int) : Res (AClip α) :=
  let f := first.getD 0
  let ns := clip.ai.numSamples
  if f < 0 then .err "AudioTrim: invalid first sample specified (less than 0)"
  else if f ≥ ns then .err "AudioTrim: invalid first sample specified (beyond clip end)"
  else if last.isSome && length.isSome then .err "AudioTrim: both last sample and length specified"
  else if last.isSome ∧ last.getD 0 < f then
    .err "AudioTrim: invalid last sample specified (last is less than first)"
  else if length.isSome ∧ length.getD 0 < 1 then .err "AudioTrim: invalid length specified (less than 1)"
  else do
    let past ← trimPastEnd f ns last length
    if past then .err "AudioTrim: last sample beyond clip end"
    else
      let trimlen := trimLen f ns last length
      if (first.isNone ∧ last.isNone ∧ length.isNone) ∨ (trimlen ≠ 0 ∧ trimlen = ns) then .ok clip
      else createAudioFilter (trimFilter { clip.ai with numSamples := trimlen } f) [clip]

/-! ## AudioSplice -/

/-- Request loop of `audioSpliceGetframe` for one output frame, audiofilters.cpp:174-189: `i` the clip, `reqFrame`,
`off` and `remaining` as in the code.  An iteration that asks for no samples or a vector access
beyond the end is `ub`. -/
def spliceReqLoop (numSamples numFrames : List Int) (i : Nat) (reqFrame off remaining : Int) : Res (List (Nat × Int)) :=
  match numSamples[i]?, numFrames[i]? with
  | some ns, some nf =>
    let reqSamples := min (SAMPLES - off) (ns - reqFrame * SAMPLES - off)
    if _h : reqSamples ≤ 0 then .ub
    else if remaining - reqSamples > 0 then
      (spliceReqLoop numSamples numFrames (if reqFrame + 1 > nf - 1 then i + 1 else i)
        (if reqFrame + 1 > nf - 1 then 0 else reqFrame + 1) 0 (remaining - reqSamples)).bind
        fun rest => .ok ((i, reqFrame) :: rest)
    else .ok [(i, reqFrame)]
  | _, _ => .ub
termination_by remaining.toNat

/-- Copy loop of `audioSpliceGetframe`, audiofilters.cpp:201-221. `dst = none` is the null pointer before the first
iteration. -/
def spliceCopyLoop (fmt : AudioFormat) (numFrames : List Int) (fetch : Nat → Int → Option (AFrame α))
    (i : Nat) (reqFrame off remaining : Int) (dst : Option (AFrame α)) (dstOffset : Int) : Res (AFrame α) :=
  match fetch i reqFrame, numFrames[i]? with
  | some src, some nf =>
    let length := src.len - off
    if _h : length ≤ 0 then .ub
    else
      (ensureFrame dst fmt remaining).bind fun d =>
      (copyAll fmt.numChannels d.ch dstOffset src.ch off (min length remaining)).bind fun ch =>
      if remaining - length > 0 then
        spliceCopyLoop fmt numFrames fetch (if reqFrame + 1 > nf - 1 then i + 1 else i)
          (if reqFrame + 1 > nf - 1 then 0 else reqFrame + 1) 0 (remaining - length) (some { d with ch := ch })
          (dstOffset + length)
      else .ok { d with ch := ch }
  | _, _ => .ub
termination_by remaining.toNat

/-- The outer search: first clip whose cumulative end lies beyond `sampleStart`, with the start position inside it,
audiofilters.cpp:168-170, 195-197.  `prev` is the cumulative end of the previous clip. -/
def spliceFind (sampleStart : Int) : (i : Nat) → (prev : Int) → (cumSamples : List Int) → Option (Nat × Int)
  | _, _, [] => none
  | i, prev, c :: rest =>
    if c > sampleStart then some (i, sampleStart - prev) else spliceFind sampleStart (i + 1) c rest

/-- `audioSpliceGetframe`, audiofilters.cpp:162-229. -/
def spliceFilter (ai : AudioInfo) (numSamples cumSamples numFrames : List Int) : AFilter α where
  ai := ai
  initial n :=
    match spliceFind (n * SAMPLES) 0 0 cumSamples with
    | none => .ok []
    | some (i, start) =>
      spliceReqLoop numSamples numFrames i (start.tdiv SAMPLES) (start.tmod SAMPLES)
        (min SAMPLES (ai.numSamples - n * SAMPLES))
  ready n fetch :=
    match spliceFind (n * SAMPLES) 0 0 cumSamples with
    | none => .fatal "No frame returned at the end of processing"
    | some (i, start) =>
      spliceCopyLoop ai.format numFrames fetch i (start.tdiv SAMPLES) (start.tmod SAMPLES)
        (min SAMPLES (ai.numSamples - n * SAMPLES)) none 0

/-- Sum of the input lengths in 64 bits, audiofilters.cpp:247-253. -/
def spliceTotal : List Int → Int → Res Int
  | [], acc => .ok acc
  | n :: rest, acc => do
    let acc ← i64 (acc + n)
    spliceTotal rest acc

/-- Cumulative ends; `none` = too long, audiofilters.cpp:255-261. -/
def spliceCum (prev : Int) : List Int → Option (List Int)
  | [] => some []
  | n :: rest =>
    if prev + n > MAX_SAMPLES then none else (spliceCum (prev + n) rest).map ((prev + n) :: ·)

/-- `audioSpliceCreate`, audiofilters.cpp:231-269.  `clips` is non-empty (argument `anode[]`). -/
def audioSpliceCreate (clips : List (AClip α)) : Res (AClip α) :=
  match clips with
  | [] => .ub
  | [c] => .ok c
  | c0 :: rest =>
    if rest.any (fun c => !isSameAudioInfo c0.ai c.ai) then .err "AudioSplice: format mismatch"
    else do
      let total ← spliceTotal (clips.map (·.ai.numSamples)) 0
      match spliceCum c0.ai.numSamples (rest.map (·.ai.numSamples)) with
      | none => .err "AudioSplice: the resulting clip is too long"
      | some cum =>
        createAudioFilter (spliceFilter { c0.ai with numSamples := total } (clips.map (·.ai.numSamples))
          (c0.ai.numSamples :: cum) (clips.map (·.ai.numFrames))) clips

/-! ## AudioLoop -/

/-- Request loop of `audioLoopGetFrame`, audiofilters.cpp:293-303. -/
def loopReqLoop (srcSamples srcFrames reqStartFrame : Int) (reqFrame off reqStart remaining : Int) :
    Res (List (Nat × Int)) :=
  let reqSamples := min (SAMPLES - off) (srcSamples - reqStart)
  if _h : reqSamples ≤ 0 then .ub
  else
    let wrap : Bool := decide (reqFrame + 1 > srcFrames - 1)
    let reqFrame' := if wrap then 0 else reqFrame + 1
    if remaining - reqSamples > 0 ∧ reqFrame' ≠ reqStartFrame then
      (loopReqLoop srcSamples srcFrames reqStartFrame reqFrame' 0
        (if wrap then 0 else reqStart + reqSamples) (remaining - reqSamples)).bind
        fun rest => .ok ((0, reqFrame) :: rest)
    else .ok [(0, reqFrame)]
termination_by remaining.toNat

/-- Copy loop of `audioLoopGetFrame`, audiofilters.cpp:308-324. -/
def loopCopyLoop (fmt : AudioFormat) (srcFrames : Int) (fetch : Nat → Int → Option (AFrame α))
    (reqFrame off remaining : Int) (dst : Option (AFrame α)) (dstOffset : Int) : Res (AFrame α) :=
  match fetch 0 reqFrame with
  | some src =>
    let length := src.len - off
    if _h : length ≤ 0 then .ub
    else
      (ensureFrame dst fmt remaining).bind fun d =>
      (copyAll fmt.numChannels d.ch dstOffset src.ch off (min length remaining)).bind fun ch =>
      if remaining - length > 0 then
        loopCopyLoop fmt srcFrames fetch (if reqFrame + 1 > srcFrames - 1 then 0 else reqFrame + 1) 0
          (remaining - length) (some { d with ch := ch }) (dstOffset + length)
      else .ok { d with ch := ch }
  | none => .ub
termination_by remaining.toNat

/-- `audioLoopGetFrame`, audiofilters.cpp:282-330. -/
def loopFilter (ai : AudioInfo) (srcSamples srcFrames : Int) : AFilter α where
  ai := ai
  initial n :=
    if srcSamples = 0 then .ub
    else
      let reqStart := (n * SAMPLES).tmod srcSamples
      loopReqLoop srcSamples srcFrames (reqStart.tdiv SAMPLES) (reqStart.tdiv SAMPLES) (reqStart.tmod SAMPLES) reqStart
        (min SAMPLES (ai.numSamples - n * SAMPLES))
  ready n fetch :=
    if srcSamples = 0 then .ub
    else
      let reqStart := (n * SAMPLES).tmod srcSamples
      loopCopyLoop ai.format srcFrames fetch (reqStart.tdiv SAMPLES) (reqStart.tmod SAMPLES)
        (min SAMPLES (ai.numSamples - n * SAMPLES)) none 0

/-- `audioLoopCreate`, audiofilters.cpp:332-361. -/
def audioLoopCreate (clip : AClip α) (times : Option Int) : Res (AClip α) :=
  let t := times.getD 0
  if t < 0 then .err "AudioLoop: cannot repeat clip a negative number of times"
  else if t = 1 then .ok clip
  else if t > 0 then
    if clip.ai.numSamples > MAX_SAMPLES.tdiv t then .err "AudioLoop: resulting clip is too long"
    else do
      let ns ← i64 (clip.ai.numSamples * t)
      createAudioFilter (loopFilter { clip.ai with numSamples := ns } clip.ai.numSamples clip.ai.numFrames) [clip]
  else
    createAudioFilter (loopFilter { clip.ai with numSamples := MAX_SAMPLES } clip.ai.numSamples clip.ai.numFrames) [clip]

/-! ## AudioReverse -/

/-- The backwards copy loops, audiofilters.cpp:396-401, 411-416: `dst[doff + i] = src[last - i]`, all channels at once.
`last` is the index of the first sample read. -/
def copyRev (numChannels : Nat) (dst : Bufs α) (doff : Int) (src : Bufs α) (last n : Int) : Res (Bufs α) :=
  if n < 0 ∨ doff < 0 ∨ doff + n > SAMPLES ∨ (n > 0 ∧ (last - (n - 1) < 0 ∨ last ≥ SAMPLES)) then .ub
  else .ok fun c i =>
    if c < numChannels ∧ doff.toNat ≤ i ∧ i < doff.toNat + n.toNat then src c (last.toNat - (i - doff.toNat))
    else dst c i

/-- `audioReverseGetFrame`, audiofilters.cpp:372-423.  The `size_t` values never wrap for frames of the right
length; a negative one is treated as `ub`. -/
def reverseFilter (ai : AudioInfo) : AFilter α where
  ai := ai
  initial n :=
    let n1 := ai.numFrames - 1 - n
    let n2 := max (ai.numFrames - 2 - n) 0
    if ai.numSamples.tmod SAMPLES ≠ 0 then .ok [(0, n1), (0, n2)] else .ok [(0, n1)]
  ready n fetch := do
    let n1 := ai.numFrames - 1 - n
    let n2 := max (ai.numFrames - 2 - n) 0
    let dstLength := min SAMPLES (ai.numSamples - n * SAMPLES)
    let src1 ← deref (fetch 0 n1)
    let l1 := src1.len
    let s1offset := if l1 - ai.numSamples.tmod SAMPLES = SAMPLES then 0 else l1 - ai.numSamples.tmod SAMPLES
    let s1samples := l1 - s1offset
    let dst ← newAudioFrame ai.format dstLength
    if s1offset < 0 ∨ dstLength - s1samples < 0 then .ub
    else do
      let ch ← copyRev ai.format.numChannels dst.ch 0 src1.ch (l1 - 1 - s1offset) s1samples
      let remaining := dstLength - s1samples
      if remaining > 0 then do
        let src2 ← deref (fetch 0 n2)
        let ch ← copyRev ai.format.numChannels ch s1samples src2.ch (src2.len - 1) remaining
        pure { dst with ch := ch }
      else pure { dst with ch := ch }

/-- `audioReverseCreate`, audiofilters.cpp:425-438. -/
def audioReverseCreate (clip : AClip α) : Res (AClip α) := createAudioFilter (reverseFilter clip.ai) [clip]

/-! ## AssumeSampleRate -/

/-- `assumeSampleRateGetframe`, audiofilters.cpp:1097-1107. -/
def assumeFilter (ai : AudioInfo) : AFilter α where
  ai := ai
  initial n := .ok [(0, n)]
  ready n fetch := match fetch 0 n with
    | some f => .ok f
    | none => .fatal "No frame returned at the end of processing"

/-- `assumeSampleRateCreate`, audiofilters.cpp:1109-1139.  `src` is the sample rate of the clip given as `src`. -/
def assumeSampleRateCreate (clip : AClip α) (samplerate : Option Int) (src : Option Int) : Res (AClip α) :=
  if samplerate.isSome = src.isSome then .err "AssumeSampleRate: need to specify source clip or samplerate"
  else
    let rate := match src with
      | some r => r
      | none => int64ToIntS (samplerate.getD 0)
    if rate < 1 then .err "AssumeSampleRate: invalid samplerate specified"
    else createAudioFilter (assumeFilter { clip.ai with sampleRate := rate }) [clip]

/-! ## ShuffleChannels -/

/-- `ShuffleChannelsDataNode`, audiofilters.cpp:917-926; `node` is the index into the clip list. -/
structure ShufNode where
  node : Nat
  idx : Int
  dstIdx : Int
  numFrames : Int
  deriving Repr

/-- Index of channel number `b` in a layout: the number of channels below it (audiofilters.cpp:1018-1021). -/
def chanIndex (layout : Nat) (b : Nat) : Nat := (List.range b).countP layout.testBit

/-- Resolving the channel of one source, audiofilters.cpp:1000-1023; `none` = not present in the input. -/
def resolveChannel (f : AudioFormat) (idx : Int) : Option Int :=
  if idx < 0 then
    if (f.numChannels : Int) ≤ -idx - 1 then none else some (-idx - 1)
  else if idx > 0 ∧ !f.channelLayout.testBit idx.toNat then none
  else some (chanIndex f.channelLayout idx.toNat)

/-- One pass of the copy loop of `shuffleChannelsGetFrame`, audiofilters.cpp:944-957; `idx` is the output channel. -/
def shufCopy [Zero α] (fmt : AudioFormat) (n dstLength : Int) (fetch : Nat → Int → Option (AFrame α)) :
    (idx : Nat) → List ShufNode → Option (AFrame α) → Res (Option (AFrame α))
  | _, [], dst => .ok dst
  | idx, s :: rest, dst =>
    match fetch s.node n with
    | none => .ub
    | some src =>
      let srcLength := if n < s.numFrames then src.len else 0
      let copyLength := min dstLength srcLength
      let zeroLength := dstLength - copyLength
      (ensureFrame dst fmt dstLength).bind fun d =>
      (if copyLength > 0 then copyOne d.ch idx 0 src.ch s.idx.toNat 0 copyLength else .ok d.ch).bind fun ch =>
      (if zeroLength > 0 then copyOne ch idx copyLength (fun _ _ => some 0) 0 0 zeroLength else .ok ch).bind fun ch =>
      shufCopy fmt n dstLength fetch (idx + 1) rest (some { d with ch := ch })

/-- `shuffleChannelsGetFrame`, audiofilters.cpp:934-964. `reqNodes` are the distinct nodes. -/
def shuffleFilter [Zero α] (ai : AudioInfo) (nodes : List ShufNode) : AFilter α where
  ai := ai
  initial n := .ok ((nodes.map (·.node)).map (fun i => (i, n)))
  ready n fetch :=
    match shufCopy ai.format n (min (ai.numSamples - n * SAMPLES) SAMPLES) fetch 0 nodes none with
    | .ok (some f) => .ok f
    | .ok none => .fatal "No frame returned at the end of processing"
    | .err e => .err e
    | .fatal e => .fatal e
    | .ub => .ub

/-- Reading the channel arguments, audiofilters.cpp:986-1000; `none` = a channel number out of range. -/
def shufArgs (numClips : Nat) : (i : Nat) → List Int → List Int → Option (List ShufNode)
  | i, c :: cs, d :: ds =>
    let channel := int64ToIntS c
    let dstChannel := int64ToIntS d
    if dstChannel < 0 ∨ dstChannel ≥ 64 ∨ channel < -64 ∨ channel ≥ 64 then none
    else (shufArgs numClips (i + 1) cs ds).map (⟨min (numClips - 1) i, channel, dstChannel, -1⟩ :: ·)
  | _, _, _ => some []

/-- `channelLayout |= 1 << dstChannel` over all nodes, audiofilters.cpp:996. -/
def shufLayout (nodes : List ShufNode) : Nat := nodes.foldl (fun l s => l ||| (1 <<< s.dstIdx.toNat)) 0

/-- The checking loop, audiofilters.cpp:1006-1034: the nodes with their channel index and length filled in, and the
largest length. -/
def shufResolve (first : AudioInfo) (clips : List (AClip α)) : List ShufNode → Int → Res (List ShufNode × Int)
  | [], acc => .ok ([], acc)
  | s :: rest, acc =>
    match clips[s.node]? with
    | none => .ub
    | some c =>
      if c.ai.sampleRate ≠ first.sampleRate ∨ c.ai.format.bitsPerSample ≠ first.format.bitsPerSample ∨
          c.ai.format.sampleType ≠ first.format.sampleType then
        .err "ShuffleChannels: all inputs must have the same samplerate, bits per sample and sample type"
      else match resolveChannel c.ai.format s.idx with
        | none => .err "ShuffleChannels: specified channel is not present in input"
        | some idx =>
          (shufResolve first clips rest (max acc c.ai.numSamples)).bind fun r =>
          .ok ({ s with idx := idx, numFrames := c.ai.numFrames } :: r.1, r.2)

/-- `shuffleChannelsCreate`, audiofilters.cpp:973-1057.  `clips` is non-empty (argument `anode[]`).  A failed format query
replaces an earlier error message by its own (lines 1036-1039); which message is reported is not
modelled, only that there is one. -/
def shuffleCreate [Zero α] (clips : List (AClip α)) (channelsIn channelsOut : List Int) : Res (AClip α) :=
  if channelsIn.length ≠ channelsOut.length then
    .err "ShuffleChannels: must have the same number of channels_in and channels_out"
  else if clips.length > channelsIn.length then
    .err "ShuffleChannels: cannot have more input nodes than selected input channels"
  else match shufArgs clips.length 0 channelsIn channelsOut with
    | none => .err "ShuffleChannels: channel number out of range"
    | some nodes =>
      let sorted := nodes.mergeSort (fun a b => decide (a.dstIdx ≤ b.dstIdx))
      match sorted.head? with
      | none => .ub
      | some s0 =>
        match clips[s0.node]? with
        | none => .ub
        | some c0 =>
          (shufResolve c0.ai clips sorted c0.ai.numSamples).bind fun r =>
          match queryAudioFormat c0.ai.format.sampleType c0.ai.format.bitsPerSample (shufLayout nodes) with
          | none => .err "ShuffleChannels: invalid output channel configuration"
          | some fmt =>
            if fmt.numChannels ≠ channelsOut.length then .err "ShuffleChannels: output channel specified twice"
            else createAudioFilter (shuffleFilter { c0.ai with format := fmt, numSamples := r.2 } r.1) clips

/-! ## SplitChannels -/

/-- The channel numbers of a layout in ascending order: the values `index` takes in the loop of
`splitChannelsCreate`, audiofilters.cpp:1077-1080. -/
def layoutChannels (layout : Nat) : List Nat := (List.range 64).filter layout.testBit

/-- `splitChannelsCreate`, audiofilters.cpp:1062-1090. -/
def splitChannels [Zero α] (clip : AClip α) : List (Res (AClip α)) :=
  if clip.ai.format.numChannels = 1 then [.ok clip]
  else (layoutChannels clip.ai.format.channelLayout).map fun c : Nat => shuffleCreate [clip] [(c : Int)] [(c : Int)]

/-! ## BlankAudio (silent) -/

/-- `blankAudioGetframe` without a waveform, audiofilters.cpp:1216-1256: `kept` is `d->f`.  Returns the
frame and the new `d->f`. -/
def blankGetFrame [Zero α] (ai : AudioInfo) (keep : Bool) (kept : Option (AFrame α)) (n : Int) :
    Res (AFrame α × Option (AFrame α)) :=
  let samples := min SAMPLES (ai.numSamples - n * SAMPLES)
  match kept with
  | none =>
    (newAudioFrame (α := α) ai.format samples).bind fun f =>
    let f := { f with ch := fun c i => if c < ai.format.numChannels ∧ (i : Int) < samples then some 0 else none }
    if keep then .ok (f, some f) else .ok (f, none)
  | some f => if keep then .ok (f, some f) else .fatal "No frame returned at the end of processing"

/-- A sequence of frame requests served by one silent BlankAudio instance, each followed by the core's check. -/
def blankServe [Zero α] (ai : AudioInfo) (keep : Bool) : Option (AFrame α) → List Nat → Res (List (AFrame α))
  | _, [] => .ok []
  | kept, n :: rest =>
    (blankGetFrame ai keep kept n).bind fun r =>
    (checkFrame ai n r.1).bind fun f =>
    (blankServe ai keep r.2 rest).bind fun fs => .ok (f :: fs)

end VS.Audio
