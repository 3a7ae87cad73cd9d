import Verif.Point.Spec
import Verif.Merge.Model

/-! # What the merge filters promise -/

namespace VS.Merge.Spec
open VS VS.Format VS.Map VS.Map.Spec VS.Pix VS.Pix.Spec VS.Point.Spec

/-- The fraction `num / den` rounded to the nearest integer, halves up. -/
def nearest (num den : Int) : Int := (2 * num + den) / (2 * den)

/-- The integer in the range of the samples that is closest to `x`. -/
def limited (x mx : Int) : Int := if x < 0 then 0 else if x > mx then mx else x

/-- The weighted mean of `a` and `b` with the weight `u` / 32768 for `b`. -/
def mean (u a b : Int) : Int := nearest ((32768 - u) * a + u * b) 32768

/-- The weighted mean of `a` and `b` with the weight `m` / `mx` for `b`. -/
def masked (mx m a b : Int) : Int := nearest ((mx - m) * a + m * b) mx

/-- The distance of `x` from `off`, multiplied by `a` / `mx`. -/
def scaled (mx off a x : Int) : Int := nearest ((x - off) * a) mx

/-- The largest sample. -/
def maxOf (f : VFmt) : Int := 2 ^ f.bitsPerSample.toNat - 1

/-- The middle of the range of samples. -/
def middleOf (f : VFmt) : Int := 2 ^ (f.bitsPerSample - 1).toNat

/-- Addition of type `float` is accurate: the relative error is at most 2⁻²⁴. -/
def Accurate (rnd : Rat → Rat) : Prop := ∀ x : Rat, 0 ≤ x → x - x / 16777216 ≤ rnd x ∧ rnd x ≤ x + x / 16777216

/-- The weight of plane `p`: one half if there is none, otherwise the last weight counts for the planes without weight. -/
def weightOf (ws : List Rat) (p : Nat) : Rat := if ws = [] then 1 / 2 else ws.getD (min p (ws.length - 1)) 0

/-- `u` / 32768 is the weight `w` up to 1 / 32768. -/
structure Units (w : Rat) (u : Nat) : Prop where
  low : w * 32768 ≤ u + 1
  high : (u : Rat) ≤ w * 32768 + 1
  le : u ≤ 32768
  zero : w = 0 → u = 0
  one : w = 1 → u = 32768

/-- The value of black in a clip with limited range: `_Range` says whether it is limited (0), without it gray and YUV are. -/
def blackOf (d : Dict) (f : VFmt) : Int :=
  if (propInt d "_Range").getD (if f.colorFamily = cfRGB then 1 else 0) = 0 then 16 * 2 ^ (f.bitsPerSample - 8).toNat else 0

/-- The value that stands for "no color" in plane `p`. -/
def zeroOf (d : Dict) (f : VFmt) (p : Nat) : Int := if p > 0 ∧ f.colorFamily = cfYUV then middleOf f else blackOf d f

/-- The chroma location: left if it is missing or invalid. -/
def locOf (d : Dict) : Nat :=
  match propInt d "_ChromaLocation" with
  | some 1 => 1
  | some 2 => 2
  | some 3 => 3
  | some 4 => 4
  | some 5 => 5
  | _ => 0

/-- The chroma planes are smaller than the first plane. -/
def Subsampled (f : VFmt) : Prop := f.subSamplingW > 0 ∨ f.subSamplingH > 0

instance (f : VFmt) : Decidable (Subsampled f) := inferInstanceAs (Decidable (_ ∨ _))

/-- A clip with the size of the chroma planes of `vi` and the same number of bits. -/
structure Small (al : Nat) (vi : VInfo) (c : PClip) : Prop where
  valid : ValidClip al c
  const : Constant c.vi
  bits : c.vi.format.bitsPerSample = vi.format.bitsPerSample
  wide : c.vi.width * 2 ^ vi.format.subSamplingW.toNat = vi.width
  high : c.vi.height * 2 ^ vi.format.subSamplingH.toNat = vi.height

/-- Six versions of a clip in the size of the chroma planes, one for each chroma location. -/
def Smaller (al : Nat) (vi : VInfo) (cs : List PClip) : Prop := ∀ l, l < 6 → ∃ c, cs[l]? = some c ∧ Small al vi c

/-- The clip PreMultiply takes as alpha. -/
def AlphaOk (c alpha : VInfo) : Prop :=
  Constant alpha ∧ alpha.width = c.width ∧ alpha.height = c.height ∧ alpha.format.colorFamily = cfGray ∧
    alpha.format.sampleType = c.format.sampleType ∧ alpha.format.bitsPerSample = c.format.bitsPerSample

/-- Only the first plane of the mask is used: it is the only one, or the argument says so. -/
def UseFirst (mask : VInfo) (firstPlane : Option Int) : Prop := firstPlane.getD 0 ≠ 0 ∨ mask.format.numPlanes = 1

instance (mask : VInfo) (firstPlane : Option Int) : Decidable (UseFirst mask firstPlane) := inferInstanceAs (Decidable (_ ∨ _))

/-- The clip MaskedMerge takes as mask. -/
def MaskOk (a mask : VInfo) (firstPlane : Option Int) : Prop :=
  mask.width = a.width ∧ mask.height = a.height ∧ mask.format.bitsPerSample = a.format.bitsPerSample ∧
    (UseFirst mask firstPlane ∨ mask.format = a.format)

/-- Chroma planes are to be merged with a smaller version of the mask. -/
def Shrinks (a mask : VInfo) (firstPlane : Option Int) (planes : List Int) : Prop :=
  UseFirst mask firstPlane ∧ Subsampled a.format ∧ (Wanted planes 1 ∨ Wanted planes 2)

instance (a mask : VInfo) (firstPlane : Option Int) (planes : List Int) : Decidable (Shrinks a mask firstPlane planes) :=
  inferInstanceAs (Decidable (_ ∧ _))

/-- The frame of the mask for plane `p` is `fs` if chroma planes have a mask of their own, otherwise `fm`. -/
def maskFrame (fm fs : Frm) (p : Nat) : Frm := if p > 0 then fs else fm

/-- The plane of the mask for plane `p`. -/
def maskPlane (mask : VInfo) (firstPlane : Option Int) (p : Nat) : Nat := if UseFirst mask firstPlane then 0 else p

/-- The frame `fs` of the mask for the chroma planes belongs to the chroma location of the frame with the properties `d`. -/
def ChromaMask (a mask : VInfo) (firstPlane : Option Int) (planes : List Int) (small : List PClip) (n : Nat) (d : Dict)
    (fm fs : Frm) : Prop :=
  if Shrinks a mask firstPlane planes then ∃ s, small[locOf d]? = some s ∧ at? s n = some fs else fs = fm

/-- The information about a clip that has room for one bit more: integers get it, the rest stays as it is. -/
structure FullOf (a full : VInfo) : Prop where
  num : full.fpsNum = a.fpsNum
  den : full.fpsDen = a.fpsDen
  wide : full.width = a.width
  high : full.height = a.height
  count : full.numFrames = a.numFrames
  family : full.format.colorFamily = a.format.colorFamily
  type : full.format.sampleType = a.format.sampleType
  bits : full.format.bitsPerSample = a.format.bitsPerSample + if a.format.sampleType = stInteger then 1 else 0
  ssw : full.format.subSamplingW = a.format.subSamplingW
  ssh : full.format.subSamplingH = a.format.subSamplingH
  valid : isValidVideoStruct full.format = true

/-- The second clip MergeFullDiff takes. -/
def FullFit (a full : VInfo) : Prop :=
  full.width = a.width ∧ full.height = a.height ∧ full.format.colorFamily = a.format.colorFamily ∧
    full.format.sampleType = a.format.sampleType ∧
    full.format.bitsPerSample = a.format.bitsPerSample + (if a.format.sampleType = stInteger then 1 else 0) ∧
    full.format.subSamplingW = a.format.subSamplingW ∧ full.format.subSamplingH = a.format.subSamplingH

end VS.Merge.Spec
