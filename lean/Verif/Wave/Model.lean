import Verif.Audio.Model

/-!
# Packed audio output of vspipe

`src/common/wave.cpp` and the audio parts of `src/vspipe/vspipe.cpp`.  Memory is a list of bytes; reading or writing
outside is undefined behaviour.  `big` says whether the machine is big endian, see wave.cpp:25-45.
-/

namespace VS.Wave
open VS VS.Audio

/-- The bytes of a number, least significant first. -/
def le : Nat → Nat → List Nat
  | 0, _ => []
  | w + 1, v => v % 256 :: le w (v / 256)

/-- The number with these bytes, least significant first. -/
def ofLe : List Nat → Nat
  | [] => 0
  | b :: l => b + 256 * ofLe l

/-- The number read from these bytes by the machine. -/
def hostNum (big : Bool) (l : List Nat) : Nat := ofLe (if big then l.reverse else l)

/-- The bytes the machine writes for a number. -/
def hostBytes (big : Bool) (w v : Nat) : List Nat := if big then (le w v).reverse else le w v

/-- `WAVE_SWAP16_LE`, `WAVE_SWAP32_LE`, `WAVE_SWAP64_LE`, wave.cpp:35-45. -/
def swapLe (big : Bool) (w v : Nat) : Nat := if big then ofLe (le w v).reverse else v

/-- Reading `n` bytes. -/
def load (mem : List Nat) (off n : Nat) : Res (List Nat) :=
  if off + n ≤ mem.length then .ok ((mem.drop off).take n) else .ub

/-- Writing bytes. -/
def store (mem : List Nat) (off : Nat) (l : List Nat) : Res (List Nat) :=
  if off + l.length ≤ mem.length then .ok (mem.take off ++ l ++ mem.drop (off + l.length)) else .ub

/-- `Src[c]`. -/
def channel (src : List (List Nat)) (c : Nat) : Res (List Nat) :=
  match src[c]? with
  | some m => .ok m
  | none => .ub

/-- `D[c] = WAVE_SWAP16_LE(S[c][i])` and the same for 32 bits: what is written, wave.cpp:52, 62. -/
def sameCell (big : Bool) (w : Nat) (m : List Nat) (i : Nat) : Res (List Nat) := do
  let l ← load m (i * w) w
  .ok (hostBytes big w (swapLe big w (hostNum big l)))

/-- The three bytes written by `PackChannels32to24le`, wave.cpp:70-76. -/
def cell24 (big : Bool) (m : List Nat) (i : Nat) : Res (List Nat) :=
  if big then do
    let a ← load m (i * 4 + 2) 1
    let b ← load m (i * 4 + 1) 1
    let c ← load m (i * 4 + 0) 1
    .ok (a ++ b ++ c)
  else load m (i * 4 + 1) 3

/-- The inner loops over the channels, wave.cpp:51-52, 61-62, 69-77: from channel `c` on, `n` channels are left; `d` is
the offset of the destination pointer, `o` the size of a cell. -/
def packRow (cell : List Nat → Nat → Res (List Nat)) (o : Nat) (src : List (List Nat)) (i d : Nat) :
    Nat → Nat → List Nat → Res (List Nat)
  | _, 0, buf => .ok buf
  | c, n + 1, buf => do
    let m ← channel src c
    let l ← cell m i
    let buf ← store buf (d + c * o) l
    packRow cell o src i d (c + 1) n buf

/-- The outer loops over the samples, wave.cpp:50-54, 60-64, 68-79. -/
def packLoop (cell : List Nat → Nat → Res (List Nat)) (o channels : Nat) (src : List (List Nat)) :
    Nat → Nat → Nat → List Nat → Res (List Nat)
  | _, _, 0, buf => .ok buf
  | i, d, n + 1, buf => do
    let buf ← packRow cell o src i d 0 channels buf
    packLoop cell o channels src (i + 1) (d + channels * o) n buf

/-- `PackChannels16to16le`, wave.cpp:47-55. -/
def pack16 (big : Bool) (src : List (List Nat)) (buf : List Nat) (length channels : Nat) : Res (List Nat) :=
  packLoop (sameCell big 2) 2 channels src 0 0 length buf

/-- `PackChannels32to32le`, wave.cpp:57-65. -/
def pack32 (big : Bool) (src : List (List Nat)) (buf : List Nat) (length channels : Nat) : Res (List Nat) :=
  packLoop (sameCell big 4) 4 channels src 0 0 length buf

/-- `PackChannels32to24le`, wave.cpp:67-80. -/
def pack24 (big : Bool) (src : List (List Nat)) (buf : List Nat) (length channels : Nat) : Res (List Nat) :=
  packLoop (cell24 big) 3 channels src 0 0 length buf

/-- An audio frame: its length and the memory of its channels. -/
structure Frame where
  len : Nat
  chans : List (List Nat)

/-- `(BitsPerSample + 7) / 8`, wave.cpp:107, 126, 146 and vspipe.cpp:265. -/
def outBytes (bits : Int) : Nat := ((bits + 7).tdiv 8).toNat

/-- The choice of the packing function, vspipe.cpp:273-278. -/
def pack (big : Bool) (f : AudioFormat) (fr : Frame) (buf : List Nat) : Res (List Nat) :=
  let o := outBytes f.bitsPerSample
  if o = 2 then pack16 big fr.chans buf fr.len f.numChannels
  else if o = 3 then pack24 big fr.chans buf fr.len f.numChannels
  else if o = 4 then pack32 big fr.chans buf fr.len f.numChannels
  else .ok buf

/-- The audio part of `outputFrame`, vspipe.cpp:260-286: the buffer afterwards and what is written to the file. -/
def outputAudio (big : Bool) (f : AudioFormat) (fr : Frame) (buf : List Nat) : Res (List Nat × List Nat) := do
  let buf ← pack big f fr buf
  let l ← load buf 0 (outBytes f.bitsPerSample * fr.len * f.numChannels)
  .ok (buf, l)

/-- All frames in order (C39). -/
def outputFrames (big : Bool) (f : AudioFormat) : List Frame → List Nat → Res (List Nat)
  | [], _ => .ok []
  | fr :: t, buf => do
    let p ← outputAudio big f fr buf
    let r ← outputFrames big f t p.1
    .ok (p.2 ++ r)

/-! ## Headers -/

/-- A number field of a header, assigned after conversion to its type and `WAVE_SWAP..._LE`. -/
def field (big : Bool) (w : Nat) (v : Int) : List Nat := hostBytes big w (swapLe big w (v % 256 ^ w).toNat)

/-- `ksDataformatSubtypePCM` and `ksDataformatSubtypeIEEEFloat`, wave.cpp:84-85. -/
def subFormat (isFloat : Bool) : List Nat :=
  [if isFloat then 3 else 1, 0, 0, 0, 0, 0, 0x10, 0, 0x80, 0, 0, 0xAA, 0, 0x38, 0x9B, 0x71]

/-- `CreateWaveFormatExtensible`, wave.cpp:101-120, as the bytes of the structure, wave.h:35-46; `none`: false. -/
def createFormat (big isFloat : Bool) (bits rate : Int) (mask : Nat) : Option (List Nat) :=
  if mask ≠ mask % 2 ^ 32 then none
  else
    let n := popcount mask
    let o := outBytes bits
    some ([0xFE, 0xFF] ++ field big 2 n ++ field big 4 rate ++ field big 4 (n * o * rate) ++ field big 2 (n * o) ++
      field big 2 (o * 8) ++ field big 2 22 ++ field big 2 bits ++ field big 4 mask ++ subFormat isFloat)

/-- `dataSize`, wave.cpp:127, 147. -/
def dataSize (bits : Int) (mask : Nat) (samples : Int) : Nat := ((popcount mask * outBytes bits * samples : Int) % 2 ^ 64).toNat

/-- `maxWaveFileSize`, wave.h:32. -/
def maxWaveFileSize : Nat := 0xFFFFFFFE

/-- `CreateWaveHeader`, wave.cpp:142-163, as the bytes of the structure, wave.h:48-57. -/
def createWave (big isFloat : Bool) (bits rate : Int) (mask : Nat) (samples : Int) : Option (List Nat) :=
  let size := dataSize bits mask samples
  if maxWaveFileSize < (68 + size) % 2 ^ 64 then none
  else match createFormat big isFloat bits rate mask with
    | none => none
    | some wfx =>
      some ([0x52, 0x49, 0x46, 0x46] ++ field big 4 (68 - 4 - 4 + size) ++ [0x57, 0x41, 0x56, 0x45] ++
        [0x66, 0x6D, 0x74, 0x20] ++ field big 4 40 ++ wfx ++ [0x64, 0x61, 0x74, 0x61] ++ field big 4 size)

/-- `wave64HdrRiffUuidVal`, wave.cpp:94. -/
def riffUuid : List Nat := [0x72, 0x69, 0x66, 0x66, 0x2E, 0x91, 0xCF, 0x11, 0xA5, 0xD6, 0x28, 0xDB, 0x04, 0xC1, 0, 0]
/-- The common part of the other identifiers, wave.cpp:95-97. -/
def uuidTail : List Nat := [0xF3, 0xAC, 0xD3, 0x11, 0x8C, 0xD1, 0, 0xC0, 0x4F, 0x8E, 0xDB, 0x8A]
/-- `wave64HdrWaveUuidVal`, wave.cpp:95. -/
def waveUuid : List Nat := [0x77, 0x61, 0x76, 0x65] ++ uuidTail
/-- `wave64HdrFmtUuidVal`, wave.cpp:96. -/
def fmtUuid : List Nat := [0x66, 0x6D, 0x74, 0x20] ++ uuidTail
/-- `wave64HdrDataUuidVal`, wave.cpp:97. -/
def dataUuid : List Nat := [0x64, 0x61, 0x74, 0x61] ++ uuidTail

/-- `CreateWave64Header`, wave.cpp:122-140, as the bytes of the structure, wave.h:59-68. -/
def createWave64 (big isFloat : Bool) (bits rate : Int) (mask : Nat) (samples : Int) : Option (List Nat) :=
  let size := dataSize bits mask samples
  match createFormat big isFloat bits rate mask with
  | none => none
  | some wfx =>
    some (riffUuid ++ field big 8 (128 + size) ++ waveUuid ++ fmtUuid ++ field big 8 (40 + 16 + 8) ++ wfx ++ dataUuid ++
      field big 8 (size + 16 + 8))

/-- The header types for audio. -/
inductive Header where
  | none | wave | wave64
  deriving DecidableEq

/-- `initializeAudioOutput`, vspipe.cpp:547-585: the header written, or failure. -/
def header (big : Bool) (h : Header) (ai : AudioInfo) : Option (List Nat) :=
  let f := ai.format
  match h with
  | .none => some []
  | .wave => createWave big (f.sampleType == 1) f.bitsPerSample ai.sampleRate f.channelLayout ai.numSamples
  | .wave64 => createWave64 big (f.sampleType == 1) f.bitsPerSample ai.sampleRate f.channelLayout ai.numSamples

/-- The buffer, vspipe.cpp:582. -/
def buffer (f : AudioFormat) : List Nat := List.replicate (f.numChannels * 3072 * f.bytesPerSample.toNat) 0

/-- The whole output for an audio clip when nothing fails; `none`: refused. -/
def audioFile (big : Bool) (h : Header) (ai : AudioInfo) (frames : List Frame) : Res (Option (List Nat)) :=
  match header big h ai with
  | none => .ok none
  | some hd => do
    let d ← outputFrames big ai.format frames (buffer ai.format)
    .ok (some (hd ++ d))

end VS.Wave
