import Verif.ExprFilter.Model
import Verif.Point.Spec
import Verif.Format.Spec

/-! # What the filter Expr computes -/

namespace VS.ExprFilter.Spec
open VS VS.Format VS.Map VS.Pix VS.Pix.Spec VS.Point VS.Point.Spec VS.Expr VS.ExprFilter

variable {α : Type}

/-- Clips that go together: at most 26, of constant format, with planes of the same number and sizes. -/
structure Inputs (v0 : VInfo) (vis : List VInfo) : Prop where
  count : vis.length ≤ 26
  each : ∀ v ∈ vis, Constant v ∧ Workable v.format ∧ v.format.numPlanes = v0.format.numPlanes ∧
    v.format.subSamplingW = v0.format.subSamplingW ∧ v.format.subSamplingH = v0.format.subSamplingH ∧ v.width = v0.width ∧
    v.height = v0.height

/-- The format of the result: that of the first clip, or a given one with the same planes. -/
structure Output (r : Reg) (f : VFmt) (format : Option Nat) (fo : VFmt) : Prop where
  work : Workable fo
  same : format = none → fo = f
  given : ∀ id, format = some id → getVideoFormatByID r id = (true, fo) ∧ GoodVideo fo ∧ fo.colorFamily = f.colorFamily ∧
    fo.subSamplingW = f.subSamplingW ∧ fo.subSamplingH = f.subSamplingH

/-- A given format is known, has samples Expr can store, and planes like `f`. -/
def FormatFits (r : Reg) (f : VFmt) (format : Option Nat) : Prop :=
  ∀ id, format = some id → ∃ fo, getVideoFormatByID r id = (true, fo) ∧ Workable fo ∧ fo.colorFamily = f.colorFamily ∧
    fo.subSamplingW = f.subSamplingW ∧ fo.subSamplingH = f.subSamplingH

/-- The expression of plane `p`: the last one counts for the remaining planes. -/
def IsText (es : List (List Char)) (p : Nat) (s : List Char) : Prop :=
  es[p]? = some s ∨ (es.length ≤ p ∧ es.getLast? = some s)

/-- The samples of `k` frames at a place as numbers; expressions cannot name other clips. -/
def pixels (V : Env α) (al k : Nat) (fs : Nat → Frm) (p x y : Nat) (m : Mem) (i : Nat) : α :=
  V.load m (if i < k then smp al (fs i) p x y else 0)

/-- The sample of the format `fo` for a value: integers are clamped and rounded. -/
def sample (V : Env α) (fo : VFmt) (v : α) : Nat :=
  if fo.sampleType = stFloat then (if fo.bitsPerSample = 16 then V.half v else V.float v) % 256 ^ bps fo
  else (clampInt V.A v fo.bitsPerSample.toNat % 65536).toNat % 256 ^ bps fo

end VS.ExprFilter.Spec
