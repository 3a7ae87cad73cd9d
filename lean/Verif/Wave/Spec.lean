import Verif.Wave.Model
import Verif.Base.Sum

/-!
# What packed audio and wave files are
-/

namespace VS.Wave
open VS VS.Audio

/-- Sample `i` in the memory of a channel with `w` bytes for each sample. -/
def sample (big : Bool) (w : Nat) (m : List Nat) (i : Nat) : Nat :=
  sumTo (fun k => m[i * w + (if big then w - 1 - k else k)]?.getD 0 * 256 ^ k) w

/-- The little endian number of `w` bytes at `off`. -/
def leAt (t : List Nat) (off w : Nat) : Nat := sumTo (fun k => t[off + k]?.getD 0 * 256 ^ k) w

/-- The `n` bytes at `off`. -/
def bytesAt (t : List Nat) (off n : Nat) : List Nat := (t.drop off).take n

/-- The frames of a clip: their number, their lengths and the sizes of their channels are the ones the core guarantees
(C36, C06). -/
structure Frames (ai : AudioInfo) (frames : List Frame) : Prop where
  count : (frames.length : Int) = ai.numFrames
  len : ∀ (n : Nat) (f : Frame), frames[n]? = some f → (f.len : Int) = expectedSamples ai n
  chans : ∀ f ∈ frames, f.chans.length = ai.format.numChannels
  size : ∀ f ∈ frames, ∀ m ∈ f.chans, f.len * ai.format.bytesPerSample.toNat ≤ m.length ∧ ∀ b ∈ m, b < 256

/-- An audio clip as the core accepts it. -/
structure Clip (ai : AudioInfo) : Prop where
  valid : isValidAudioInfo ai = true
  layout : ai.format.channelLayout < 2 ^ 64
  rate : ai.sampleRate ≤ INT_MAX
  samples : ai.numSamples ≤ MAX_SAMPLES
  frames : ai.numFrames = (ai.numSamples + SAMPLES - 1).tdiv SAMPLES

/-- Bytes for each sample in the output: the smallest number that holds the bits. -/
def width (f : AudioFormat) : Nat := if f.bitsPerSample ≤ 16 then 2 else if f.bitsPerSample ≤ 24 then 3 else 4

/-- Size of all samples. -/
def total (ai : AudioInfo) : Nat := ai.numSamples.toNat * ai.format.numChannels * width ai.format

/-- `d` holds the samples of the clip: sample by sample, for each sample channel by channel, each as little endian
number consisting of the most significant bytes. -/
def Interleaved (big : Bool) (ai : AudioInfo) (frames : List Frame) (d : List Nat) : Prop :=
  d.length = total ai ∧
  ∀ (n i c b : Nat) (f : Frame) (m : List Nat), frames[n]? = some f → i < f.len → f.chans[c]? = some m →
    b < width ai.format →
    d[((n * 3072 + i) * ai.format.numChannels + c) * width ai.format + b]? =
      some (sample big ai.format.bytesPerSample.toNat m i /
        256 ^ (ai.format.bytesPerSample.toNat - width ai.format + b) % 256)

/-- A `WAVEFORMATEXTENSIBLE` at `off`. -/
structure IsFormat (ai : AudioInfo) (t : List Nat) (off : Nat) : Prop where
  tag : leAt t off 2 = 0xFFFE
  channels : leAt t (off + 2) 2 = ai.format.numChannels
  rate : (leAt t (off + 4) 4 : Int) = ai.sampleRate
  avg : ai.sampleRate * ai.format.numChannels * width ai.format < 2 ^ 32 →
    (leAt t (off + 8) 4 : Int) = ai.sampleRate * ai.format.numChannels * width ai.format
  block : leAt t (off + 12) 2 = ai.format.numChannels * width ai.format
  bits : leAt t (off + 14) 2 = 8 * width ai.format
  extra : leAt t (off + 16) 2 = 22
  validBits : (leAt t (off + 18) 2 : Int) = ai.format.bitsPerSample
  mask : leAt t (off + 20) 4 = ai.format.channelLayout
  kind : leAt t (off + 24) 2 = if ai.format.sampleType = 1 then 3 else 1
  guid : bytesAt t (off + 26) 14 = [0, 0, 0, 0, 0x10, 0, 0x80, 0, 0, 0xAA, 0, 0x38, 0x9B, 0x71]

/-- The bytes of an ASCII text. -/
def text (s : String) : List Nat := s.toList.map Char.toNat

/-- A wave file with the data `d`: a RIFF chunk of the size of the file, containing a format and a data chunk. -/
structure IsWave (ai : AudioInfo) (t d : List Nat) : Prop where
  riff : bytesAt t 0 4 = text "RIFF"
  size : leAt t 4 4 + 8 = t.length
  wave : bytesAt t 8 4 = text "WAVE"
  fmt : bytesAt t 12 4 = text "fmt "
  fmtSize : leAt t 16 4 = 40
  format : IsFormat ai t 20
  data : bytesAt t 60 4 = text "data"
  dataSize : leAt t 64 4 = d.length
  rest : t.drop 68 = d

/-- The end of the identifiers in Wave64 files. -/
def guidTail : List Nat := [0xF3, 0xAC, 0xD3, 0x11, 0x8C, 0xD1, 0x00, 0xC0, 0x4F, 0x8E, 0xDB, 0x8A]

/-- A Wave64 file with the data `d`; sizes are those of whole chunks. -/
structure IsWave64 (ai : AudioInfo) (t d : List Nat) : Prop where
  riff : bytesAt t 0 16 = text "riff" ++ [0x2E, 0x91, 0xCF, 0x11, 0xA5, 0xD6, 0x28, 0xDB, 0x04, 0xC1, 0x00, 0x00]
  size : leAt t 16 8 = t.length
  wave : bytesAt t 24 16 = text "wave" ++ guidTail
  fmt : bytesAt t 40 16 = text "fmt " ++ guidTail
  fmtSize : leAt t 56 8 = 24 + 40
  format : IsFormat ai t 64
  data : bytesAt t 104 16 = text "data" ++ guidTail
  dataSize : leAt t 120 8 = 24 + d.length
  rest : t.drop 128 = d

end VS.Wave
