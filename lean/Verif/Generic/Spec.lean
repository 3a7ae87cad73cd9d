import Verif.Generic.Model
import Verif.Pixel.Spec

/-! # Neighbourhoods of samples -/

namespace VS.Generic.Spec
open VS VS.Format VS.Pix VS.Point VS.Point.Spec VS.Pixel VS.Pixel.Spec

/-- The place in a row of `n` samples next to `i`. -/
def nearest (n : Nat) (i : Int) : Nat := if i < 0 then 0 else if (n : Int) ≤ i then n - 1 else i.toNat

/-- The sample `dx` to the right and `dy` below; outside of the picture that at the border. -/
def nbr (v : Nat → Nat → Nat) (w h x y : Nat) (d : Int × Int) : Nat := v (nearest w (x + d.1)) (nearest h (y + d.2))

/-- The places around a sample in the order of the argument `coordinates`. -/
def offsets : List (Int × Int) := [(-1, -1), (0, -1), (1, -1), (-1, 0), (1, 0), (-1, 1), (0, 1), (1, 1)]

/-- The nine samples around `x`, `y`. -/
def nine (v : Nat → Nat → Nat) (w h x y : Nat) : List Nat := v x y :: offsets.map (nbr v w h x y)

/-- The argument `coordinates` chooses place `i`. -/
def Enabled (coords : Option (List Int)) (i : Nat) : Prop := ∀ l, coords = some l → l.getD i 0 ≠ 0

instance (coords : Option (List Int)) (i : Nat) : Decidable (Enabled coords i) :=
  match coords with
  | none => .isTrue (fun _ h => by cases h)
  | some l => if h : l.getD i 0 ≠ 0 then .isTrue (fun _ e => by cases e; exact h) else .isFalse (fun e => h (e l rfl))

/-- The sample and its chosen neighbours. -/
def chosen (coords : Option (List Int)) (v : Nat → Nat → Nat) (w h x y : Nat) : List Nat :=
  v x y :: (offsets.zipIdx.filter fun d => decide (Enabled coords d.2)).map fun d => nbr v w h x y d.1

/-- The argument has eight elements, or isn't given. -/
def CoordsOk (coords : Option (List Int)) : Prop := ∀ l, coords = some l → l.length = 8

/-- `t` is the argument `threshold` rounded to an integer, the largest sample if it isn't given. -/
def ThresholdIs (F : Floats) (f : VFmt) (arg : Option Nat) (t : Nat) : Prop :=
  t ≤ top f ∧ ((arg = none ∧ t = top f) ∨ ∃ b q, arg = some b ∧ single F b = some q ∧ rabs (q - t) ≤ 1 / 2)

/-- Arguments that are accepted: the rounded number is a sample. -/
def ThresholdOk (F : Floats) (f : VFmt) (arg : Option Nat) : Prop :=
  ∀ b, arg = some b → ∃ q, single F b = some q ∧ -1 / 2 < q ∧ q < top f + 1 / 2

/-- The size of a plane of a clip. -/
def planeSize (size ss : Int) (p : Nat) : Int := if p = 0 then size else size / 2 ^ ss.toNat

/-- All planes to be processed have at least 4 × 4 samples, or the size isn't known yet. -/
def BigClip (vi : VInfo) (planes : List Int) : Prop :=
  0 < vi.width → ∀ p : Nat, (p : Int) < vi.format.numPlanes → Wanted planes p →
    4 ≤ planeSize vi.width vi.format.subSamplingW p ∧ 4 ≤ planeSize vi.height vi.format.subSamplingH p

/-- All planes to be processed have at least 4 × 4 samples. -/
def BigFrame (f : Frm) (planes : List Int) : Prop :=
  ∀ p : Nat, (p : Int) < f.fmt.numPlanes → Wanted planes p → 4 ≤ f.w p ∧ 4 ≤ f.h p

/-- At least five of nine numbers are not larger, and at least five not smaller. -/
def IsMedian (l : List Nat) (m : Nat) : Prop :=
  m ∈ l ∧ 5 ≤ l.countP (fun v => decide (v ≤ m)) ∧ 5 ≤ l.countP (fun v => decide (m ≤ v))

/-- The mean of the eight neighbours, rounded. -/
def mean8 (v : Nat → Nat → Nat) (w h x y : Nat) : Nat := ((offsets.map (nbr v w h x y)).sum + 4) / 8

/-- The weighted sum of the neighbours. -/
def weighted (ws : List ((Int × Int) × Int)) (v : Nat → Nat → Nat) (w h x y : Nat) : Int :=
  (ws.map fun d => d.2 * (nbr v w h x y d.1 : Int)).sum

/-- The gradient from top to bottom: `e` is the weight in the middle. -/
def down (e : Int) : List ((Int × Int) × Int) := [((-1, 1), 1), ((0, 1), e), ((1, 1), 1), ((-1, -1), -1), ((0, -1), -e), ((1, -1), -1)]

/-- The gradient from left to right. -/
def right (e : Int) : List ((Int × Int) × Int) := [((1, -1), 1), ((1, 0), e), ((1, 1), 1), ((-1, -1), -1), ((-1, 0), -e), ((-1, 1), -1)]

/-- The square of the length of the gradient. -/
def normSq (e : Int) (v : Nat → Nat → Nat) (w h x y : Nat) : Rat :=
  ((weighted (down e) v w h x y * weighted (down e) v w h x y + weighted (right e) v w h x y * weighted (right e) v w h x y : Int) : Rat)

/-- `s` is the argument `scale`, 1 if it isn't given. -/
def ScaleIs (F : Floats) (arg : Option Nat) (s : Rat) : Prop :=
  (arg = none ∧ s = 1) ∨ ∃ b, arg = some b ∧ single F b = some s ∧ 0 ≤ s

end VS.Generic.Spec
