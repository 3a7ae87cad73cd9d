import Verif.Lut.Model
import Verif.Point.Spec

/-! # What Lut and Lut2 are asked for -/

namespace VS.Lut.Spec
open VS VS.Format VS.Pix VS.Point.Spec

/-- The output is floating point. -/
def FloatOut (a : Args) : Prop := a.floatout.getD 0 ≠ 0

instance (a : Args) : Decidable (FloatOut a) := inferInstanceAs (Decidable (_ ≠ _))

/-- The format of the result: like `f` with other samples, 8 to 16 bit integer, or 32 bit floating point. -/
structure OutOk (a : Args) (f fo : VFmt) : Prop where
  color : fo.colorFamily = f.colorFamily
  subW : fo.subSamplingW = f.subSamplingW
  subH : fo.subSamplingH = f.subSamplingH
  planes : fo.numPlanes = f.numPlanes
  int : ¬ FloatOut a → fo.sampleType = stInteger ∧ fo.bitsPerSample = a.bits.getD f.bitsPerSample ∧ 8 ≤ fo.bitsPerSample ∧
    fo.bitsPerSample ≤ 16 ∧ fo.bytesPerSample = if fo.bitsPerSample = 8 then 1 else 2
  float : FloatOut a → fo.sampleType = stFloat ∧ fo.bitsPerSample = 32 ∧ fo.bytesPerSample = 4 ∧ (a.bits = none ∨ a.bits = some 32)

/-- The arguments give the `n` values `T` for samples of the format `fo`. The function is called with `x` and `y`; the value
number `i` is that for `x` = `i` mod `nx` and `y` = `i` / `nx`. -/
def Values (F : Conv) (a : Args) (fo : VFmt) (nx n : Nat) (T : Nat → Nat) : Prop :=
  (∃ l, a.lut = some l ∧ a.lutf = none ∧ a.function = none ∧ ¬ FloatOut a ∧ l.length = n ∧
    ∀ i, i < n → l[i]? = some (T i : Int) ∧ T i < 2 ^ fo.bitsPerSample.toNat) ∨
  (∃ l, a.lut = none ∧ a.lutf = some l ∧ a.function = none ∧ FloatOut a ∧ l.length = n ∧
    ∀ i, i < n → ∃ b, l[i]? = some b ∧ T i = F.single b) ∨
  (∃ f, a.lut = none ∧ a.lutf = none ∧ a.function = some f ∧ ¬ FloatOut a ∧
    ∀ i, i < n → f (i % nx) (i / nx) = .int (T i) ∧ T i < 2 ^ fo.bitsPerSample.toNat) ∨
  (∃ f, a.lut = none ∧ a.lutf = none ∧ a.function = some f ∧ FloatOut a ∧
    ∀ i, i < n → ∃ b, f (i % nx) (i / nx) = .float b ∧ T i = F.single b)

/-- The function never fails with an empty message. -/
def Speaks (a : Args) : Prop := ∀ f, a.function = some f → ∀ x y, f x y ≠ .error ""

/-- Integer samples of at most 16 bits in a clip of constant format and size. -/
def Small (vi : VInfo) : Prop := Constant vi ∧ vi.format.sampleType = stInteger ∧ vi.format.bitsPerSample ≤ 16

/-- Two clips for Lut2. -/
def Pair (a b : VInfo) : Prop :=
  Constant a ∧ Constant b ∧ a.format.sampleType = stInteger ∧ b.format.sampleType = stInteger ∧
    a.format.bitsPerSample + b.format.bitsPerSample ≤ 20 ∧ a.format.subSamplingW = b.format.subSamplingW ∧
    a.format.subSamplingH = b.format.subSamplingH ∧ a.width = b.width ∧ a.height = b.height

end VS.Lut.Spec
