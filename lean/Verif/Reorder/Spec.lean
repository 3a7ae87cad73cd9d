import Verif.Filter.Model

/-!
# Specification of the reordering filters: plain list operations

Nothing here refers to the model of the filters.  `F` is the type of frames, `n` the number of input frames.
-/

namespace VS.Reorder.Spec

variable {F α : Type}

/-- Trim: which argument combinations are in range. -/
structure TrimLegal (n : Int) (first last length : Option Int) : Prop where
  first_ge : 0 ≤ first.getD 0
  first_lt : first.getD 0 < n
  not_both : ¬ (last.isSome ∧ length.isSome)
  last_ok : ∀ l, last = some l → first.getD 0 ≤ l ∧ l < n
  length_ok : ∀ k, length = some k → 1 ≤ k ∧ first.getD 0 + k ≤ n

/-- Trim: number of frames asked for. -/
def trimCount (n : Int) (first last length : Option Int) : Int :=
  match last, length with
  | some l, _ => l + 1 - first.getD 0
  | none, some k => k
  | none, none => n - first.getD 0

/-- Trim: the requested range of frames. -/
def trim (frames : List F) (first last length : Option Int) : List F :=
  (frames.drop (first.getD 0).toNat).take (trimCount frames.length first last length).toNat

/-- The list repeated `t` times. -/
def repeated (frames : List F) (t : Nat) : List F := (List.replicate t frames).flatten

/-- The duration of a frame scaled by `q`, in lowest terms.  Frames without a valid duration are not
changed; a negative denominator stays negative. -/
def retimed (q : Rat) (f : VFrame α) : VFrame α :=
  match f.durNum, f.durDen with
  | some a, some b =>
    if b = 0 then f
    else
      let r : Rat := ((a : Rat) / b) * q
      { f with durNum := some (b.sign * r.num), durDen := some (b.sign * r.den) }
  | _, _ => f

/-- A frame rate (0/0 = variable) scaled by `q`, in lowest terms. -/
def scaledRate (num den : Int) (q : Rat) : Int × Int :=
  if den = 0 then (num, den) else
    let r : Rat := ((num : Rat) / den) * q
    (r.num, r.den)

/-- Interleave: length of the woven clip, from the (positive) lengths of the inputs.  Frame `k` of
input `i` is at position `k*m+i`; the result ends at the last such position. -/
def wovenLength (counts : List Nat) : Nat :=
  (counts.zipIdx.map (fun p => (p.1 - 1) * counts.length + p.2 + 1)).foldl max 0

/-- Interleave with `extend`: all inputs are repeated to the length of the longest. -/
def extendedLength (counts : List Nat) : Nat := counts.foldl max 0 * counts.length

/-- SelectEvery: for each cycle, the listed offsets that exist, in order. -/
def selectEvery (frames : List F) (cycle : Nat) (offsets : List Nat) : List F :=
  (List.range ((frames.length + cycle - 1) / cycle)).flatMap fun c =>
    offsets.filterMap fun o => frames[c * cycle + o]?

/-- DuplicateFrames: each frame followed by one copy for each time its number is listed. -/
def duplicate (frames : List F) (dups : List Int) : List F :=
  frames.zipIdx.flatMap fun p => List.replicate (1 + dups.count (p.2 : Int)) p.1

/-- DeleteFrames: the frames whose number is not listed. -/
def delete (frames : List F) (del : List Int) : List F :=
  (frames.zipIdx.filter fun p => decide ((p.2 : Int) ∉ del)).map (·.1)

/-- FreezeFrames: a range given by its two ends in any order, and the frame to show instead. -/
structure Range where
  a : Int
  b : Int
  repl : Int

/-- The frame number lies in the range. -/
def Range.Has (r : Range) (k : Int) : Prop := min r.a r.b ≤ k ∧ k ≤ max r.a r.b

instance (r : Range) (k : Int) : Decidable (r.Has k) := inferInstanceAs (Decidable (_ ∧ _))

/-- The ranges built from the three argument arrays. -/
def ranges : List Int → List Int → List Int → List Range
  | a :: as, b :: bs, c :: cs => ⟨a, b, c⟩ :: ranges as bs cs
  | _, _, _ => []

/-- FreezeFrames: all frame numbers are in range and no frame lies in two ranges. -/
structure FreezeLegal (n : Int) (rs : List Range) : Prop where
  bounds : ∀ r ∈ rs, 0 ≤ min r.a r.b ∧ max r.a r.b < n ∧ 0 ≤ r.repl ∧ r.repl < n
  disjoint : rs.Pairwise (fun r s => ∀ k, ¬ (r.Has k ∧ s.Has k))

/-- FreezeFrames: which input frame is shown at position `k`. -/
def frozen (rs : List Range) (k : Nat) : Nat :=
  match rs.find? (fun r => decide (r.Has k)) with
  | some r => r.repl.toNat
  | none => k

/-- FreezeFrames: the whole output. -/
def freeze (frames : List F) (rs : List Range) : List F :=
  (List.range frames.length).filterMap fun k => frames[frozen rs k]?

end VS.Reorder.Spec

namespace VS.Reorder.Spec

/-- Splice without `mismatch` accepts clips that have the same dimensions and format; a first clip whose
dimensions or format are variable (0) accepts anything in that respect.  The frame rate does not matter. -/
def SpliceCompatible (first : VideoInfo) (rest : List VideoInfo) : Prop :=
  ((first.width = 0 ∧ first.height = 0) ∨ ∀ v ∈ rest, v.width = first.width ∧ v.height = first.height) ∧
  (first.fmt = 0 ∨ ∀ v ∈ rest, v.fmt = first.fmt)

/-- Interleave without `mismatch` accepts clips with the same dimensions, format and frame rate. -/
def SameKind (first : VideoInfo) (rest : List VideoInfo) : Prop :=
  ∀ v ∈ rest, v.width = first.width ∧ v.height = first.height ∧ v.fmt = first.fmt ∧
    v.fpsNum = first.fpsNum ∧ v.fpsDen = first.fpsDen

end VS.Reorder.Spec
