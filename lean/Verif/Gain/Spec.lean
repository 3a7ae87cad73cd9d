import Verif.Gain.Model
import Verif.Audio.Spec

/-!
# What AudioGain and AudioMix are meant to do

An integer sample of a format with `bits` significant bits is a multiple of the step of the format, from
`-2^(bits-1)` to `2^(bits-1) - 1` steps.  The result of a computation is the multiple next to it, limited to this range.
-/

namespace VS.Gain.Spec
open VS VS.Audio VS.Gain

/-- `n` is the integer next to `q`; of two equally close ones the one further away from zero. -/
def Nearest (q : Rat) (n : Int) : Prop := |q - n| ≤ 1 / 2 ∧ (|q - n| = 1 / 2 → |q| < |(n : Rat)|)

/-- Container units per step: the unused low bits of the 16 or 32 bit container. -/
def step (fmt : AudioFormat) : Int := if fmt.bitsPerSample = 16 then 1 else 2 ^ (32 - fmt.bitsPerSample).toNat

/-- Half the number of values. -/
def half (fmt : AudioFormat) : Int := 2 ^ (fmt.bitsPerSample - 1).toNat

/-- `out` is the sample for the computed number `v` (in container units), and `clipped` says whether it had to be
limited. -/
def Quantised (fmt : AudioFormat) (v : Rat) (out : Int) (clipped : Bool) : Prop :=
  ∃ n : Int, Nearest (v / step fmt) n ∧
    out = (if n < -half fmt then -half fmt else if n > half fmt - 1 then half fmt - 1 else n) * step fmt ∧
    (clipped = true ↔ n < -half fmt ∨ n > half fmt - 1)

/-- The sample `out` made from sample `x` with gain `g`: the product up to the accuracy of double precision, and the exact
product if it has no more than 53 bits. -/
structure Amplified (fmt : AudioFormat) (g : Rat) (x out : Int) (clipped : Bool) : Prop where
  close : ∃ v, |v - x * g| ≤ |x * g| / 2 ^ 51 + 1 / 2 ^ 1000 ∧ Quantised fmt v out clipped
  exact : ∀ (m : Int) (e : Nat), x * g = m / 2 ^ e → m.natAbs ≤ 2 ^ 53 → e ≤ 1058 → Quantised fmt (x * g) out clipped

/-- The exact weighted sum. -/
def dot : List (Int × Rat) → Rat
  | [] => 0
  | p :: rest => p.1 * p.2 + dot rest

/-- The sum of the absolute values. -/
def mass : List (Int × Rat) → Rat
  | [] => 0
  | p :: rest => |p.1 * p.2| + mass rest

/-- The same for integer weights. -/
def imass : List (Int × Int) → Nat
  | [] => 0
  | p :: rest => (p.1 * p.2).natAbs + imass rest

/-- The sample `out` mixed from these samples and weights: the weighted sum up to the accuracy of double precision, and the
exact sum if the weights are fractions with a common denominator and nothing exceeds 53 bits. -/
structure Mixed (fmt : AudioFormat) (terms : List (Int × Rat)) (out : Int) (clipped : Bool) : Prop where
  close : ∃ v, |v - dot terms| ≤ (terms.length + 1) * (mass terms + 1) / 2 ^ 50 ∧ Quantised fmt v out clipped
  exact : ∀ (ts : List (Int × Int)) (e : Nat), terms = ts.map (fun p => (p.1, (p.2 / 2 ^ e : Rat))) → imass ts ≤ 2 ^ 53 →
    e ≤ 1058 → Quantised fmt (dot terms) out clipped

/-- Frame `k` of a clip with `N` samples contains a clipped sample. -/
def ClipsIn (numChannels N : Nat) (clip : Nat → Nat → Bool) (k : Nat) : Prop :=
  ∃ c p, c < numChannels ∧ p < N ∧ p / 3072 = k ∧ clip c p = true

/-- The first sample after frame `k` still has an `int` number. -/
def Countable (N k : Nat) : Prop := min N ((k + 1) * 3072) < 2 ^ 31

/-- What a filter that clips delivers: all frames carry the signal `sig`, unless there is clipping and an error was asked
for; the message says where.  If the numbers in the message are too large, making it is undefined behaviour. -/
structure Delivers (name : String) (out : AClip Int) (N : Nat) (sig : Signal Int) (clip : Nat → Nat → Bool) (overflowError : Bool)
    (warned : Int → Bool) : Prop where
  ok : ∀ k, k < frameCount N → (¬ ClipsIn out.ai.format.numChannels N clip k ∨
      (overflowError = false ∧ (Countable N k ∨ warned k = true))) →
    ∃ f, out.frame k = .ok f ∧ IsFrame out.ai.format N sig k f
  err : ∀ k, k < frameCount N → ClipsIn out.ai.format.numChannels N clip k → overflowError = true → Countable N k →
    out.frame k = .err (name ++ ": clipping detected in the sample interval " ++ toString ((k * 3072 : Nat) : Int) ++ " to " ++
      toString ((min N ((k + 1) * 3072) - 1 : Nat) : Int))
  ub : ∀ k, k < frameCount N → ClipsIn out.ai.format.numChannels N clip k → ¬ Countable N k →
    (overflowError = true ∨ warned k = false) → out.frame k = .ub

end VS.Gain.Spec
