import Verif.Average.Model
import Verif.Generic.ConvSpec

/-! # What AverageFrames computes -/

namespace VS.Average.Spec
open VS VS.Format VS.Map VS.Pix VS.Pix.Spec VS.Point VS.Point.Spec VS.Pixel VS.Pixel.Spec VS.Generic VS.Generic.Spec VS.Average

/-- The `i`-th of the `k` frames of which frame `n` is made: for one clip the frames around frame `n`, with the first and the last one
repeated, else frame `n` of each clip. -/
def source (clips : List PClip) (k n i : Nat) : Option Frm :=
  match clips with
  | [c] => at? c (n + i - k / 2)
  | cs => (cs[i]?).bind fun c => at? c n

/-- The length of the longest clip. -/
def longest : List PClip → Int
  | [] => 0
  | c :: t => max c.vi.numFrames (longest t)

/-- A switch that is off by default. -/
def on (arg : Option Int) : Bool := decide (arg.getD 0 ≠ 0)

/-- Clips of the same format and size that AverageFrames can work on. -/
structure Inputs (al : Nat) (c : PClip) (rest : List PClip) : Prop where
  valid : ∀ d ∈ c :: rest, ValidClip al d
  work : Workable c.vi.format
  const : Constant c.vi
  fit : ∀ d ∈ rest, Fit c.vi d.vi

/-- Numbers of clips and weights that fit. -/
def CountOk (clips weights : Nat) (scenes : Bool) : Prop :=
  (clips = 1 → weights % 2 = 1) ∧ (clips ≠ 1 → weights = clips ∧ scenes = false) ∧ weights ≤ 31

/-- A frame has a property that is not 0. -/
def Marked (key : Key) (f : Frm) : Prop := ∃ i, propInt f.props key = some i ∧ i ≠ 0

/-- Frame `i` belongs to the scene of the one in the middle: no scene begins or ends between them. -/
def InScene (k : Nat) (fs : Nat → Frm) (i : Nat) : Prop :=
  (∀ j, i < j → j ≤ k / 2 → ¬ Marked "_SceneChangePrev" (fs j)) ∧ (∀ j, k / 2 ≤ j → j < i → ¬ Marked "_SceneChangeNext" (fs j))

open Classical in
/-- The frame that counts for frame `i`: those of other scenes are replaced by the one in the middle. -/
noncomputable def counts (scenes : Bool) (k : Nat) (fs : Nat → Frm) (i : Nat) : Nat := if scenes = true ∧ ¬ InScene k fs i then k / 2 else i

/-- The sum of products from index `i` on. -/
def wsum (v : Nat → Int) : Nat → List Int → Int
  | _, [] => 0
  | i, w :: t => w * v i + wsum v (i + 1) t

/-- The value without color: 0, except for the chroma planes. -/
def zero (f : VFmt) (p : Nat) : Int := if (p = 1 ∨ p = 2) ∧ f.colorFamily = cfYUV then 2 ^ (f.bitsPerSample.toNat - 1) else 0

/-- The number by which the sum is divided: the sum of the weights, or 1 if that is smaller; or the argument, rounded. -/
def ScaleIs (F : AFloats) (arg : Option Nat) (ws : List Int) (sc : Int) : Prop :=
  (arg = none ∧ sc = max 1 ws.sum) ∨
    ∃ b q, arg = some b ∧ single F.toFloats b = some q ∧ 1 ≤ sc ∧ sc ≤ 2 ^ 31 - 1 ∧ ((q ≤ 2 ^ 31 ∧ RoundsTo q sc) ∨ (2 ^ 31 < q ∧ sc = 2 ^ 31 - 1))

/-- The same for float clips. -/
def ScaleOk (F : AFloats) (arg : Option Nat) : Prop := ∀ b, arg = some b → ∃ q, single F.toFloats b = some q ∧ 1 / 2 ^ 23 ≤ q

/-- `res` is the quotient plus `z`, rounded and limited to 0 to `t`, up to the errors of single precision; quotients without
remainder are exact. -/
def AvgValue (t : Nat) (z sc a : Int) (res : Nat) : Prop :=
  res ≤ t ∧ rabs ((res : Rat) - max 0 (min ((a : Rat) / sc + z) t)) ≤ 1 / 2 + rabs ((a : Rat) / sc) / 2 ^ 20 + 1 / 2 ^ 100 ∧
  ∀ q : Int, a = q * sc → (res : Int) = max 0 (min (q + z) t)

end VS.Average.Spec
