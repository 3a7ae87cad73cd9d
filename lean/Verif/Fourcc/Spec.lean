import Verif.Fourcc.Model
import Verif.Video.Spec

/-!
# What a frame with a four character code looks like
-/

namespace VS.Fourcc
open VS VS.Format VS.Wave VS.Video

/-- The four characters that `GetFourCC` tells, if it succeeds: the bytes of the number in memory. -/
def codeOf (f : VFmt) (alt : Int) : Option (List Nat) := if (getFourCC f alt).1 then some (le 4 (getFourCC f alt).2) else none

/-- The characters of a code. -/
def code (s : String) : Option (List Nat) := some (s.toList.map Char.toNat)

/-- The order of the planes: luma, then V and U, but U and V for the two codes that say so. -/
def planesOf (c : Option (List Nat)) (planes : List Plane) : List Plane :=
  match planes with
  | [y, u, v] => if c = code "I420" ∨ c = code "IYUV" then [y, u, v] else [y, v, u]
  | l => l

/-- A planar frame: the rows of all planes without padding. -/
def planarFrame (c : Option (List Nat)) (bytes : Nat) (planes : List Plane) : List Nat :=
  (planesOf c planes).flatMap (image bytes)

/-- The codes with luma in one plane, and U and V in turns in another one. -/
def TwoPlanes (c : Option (List Nat)) : Prop := c = code "P010" ∨ c = code "P016" ∨ c = code "P210" ∨ c = code "P216"

/-- Bytes from one line to the next of the formats with all samples in one plane: lines of r210 are multiples of 256 bytes
with four bytes for each pixel, those of v210 have 128 bytes for each 48 pixels. -/
def lineBytes (c : Option (List Nat)) (width : Nat) : Nat :=
  if c = code "DIB " ∨ c = code "Y410" then 4 * width
  else if c = code "r210" then 256 * ((width + 63) / 64)
  else if c = code "v210" then 128 * ((width + 47) / 48)
  else if c = code "b64a" ∨ c = code "Y416" then 8 * width
  else 2 * width

/-- The packing of libp2p for a code; the codes for 16 bits are used for 12 bits as well. -/
def packingOf (c : Option (List Nat)) (bits : Int) : Packing :=
  if c = code "DIB " then .argb32le else if c = code "r210" then .rgb30be else if c = code "b64a" then .argb64be
  else if c = code "YUY2" then .yuy2 else if c = code "UYVY" then .uyvy else if c = code "v210" then .v210le
  else if c = code "Y410" then .y410le else if c = code "Y416" then .y416le
  else if c = code "P010" then .p010le else if c = code "P210" then .p210le
  else if c = code "P016" then (if bits = 12 then .p012le else .p016le)
  else if c = code "P216" then (if bits = 12 then .p212le else .p216le)
  else .planar

/-- Clips with frames: chroma divides the dimensions, as `newVideoFrame` demands. -/
def Divides (vi : VInfo) : Prop :=
  vi.width.toNat % 2 ^ vi.format.subSamplingW.toNat = 0 ∧ vi.height.toNat % 2 ^ vi.format.subSamplingH.toNat = 0

end VS.Fourcc
