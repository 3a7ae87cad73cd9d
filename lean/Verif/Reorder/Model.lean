import Verif.Filter.Model

/-!
# Frame reordering filters

Model of src/core/reorderfilters.cpp.  Arguments are the raw 64 bit values passed by the caller
(`none` = not given); `mapGetIntSaturated` is `int64ToIntS`.  `RETERROR` is `err` with the same text.
-/

namespace VS.Reorder

variable {α : Type}

/-- `mapGetIntSaturated` with an error pointer: the saturated value, 0 when unset
(src/core/vsapi.cpp:415-422). -/
def argS (a : Option Int) : Int := match a with | some v => int64ToIntS v | none => 0

/-- `!!mapGetInt(...)`: flags that default to false. -/
def flag (a : Option Int) : Bool := match a with | some v => decide (v ≠ 0) | none => false

/-- Flags that default to true (`if (err) d->modifyDuration = 1`, reorderfilters.cpp:223-225, 408-410). -/
def flagT (a : Option Int) : Bool := match a with | some v => decide (v ≠ 0) | none => true

/-! ## Trim -/

/-- `trimGetframe`, reorderfilters.cpp:111-121. -/
def trimFilter (vi : VideoInfo) (first : Int) : VFilter (VFrame α) where
  vi := vi
  initial n := do
    let k ← i32 (n + first)
    pure ([(0, k)], (0, 0))
  ready n _ fetch := do
    let k ← i32 (n + first)
    retFrame (fetch 0 k)

/-- Length selected by the arguments, reorderfilters.cpp:156-162. -/
def trimLen (first numFrames : Int) (last length : Option Int) : Int :=
  match last with
  | some l => int64ToIntS l - first + 1
  | none => match length with
    | some n => int64ToIntS n
    | none => numFrames - first

/-- `trimCreate`, reorderfilters.cpp:123-174. -/
def trimCreate (clip : Clip (VFrame α)) (first last length : Option Int) : Res (Created (VFrame α)) :=
  let f := argS first
  let vi := clip.vi
  if f < 0 then .err "Trim: invalid first frame specified (less than 0)"
  else if f ≥ vi.numFrames then .err "Trim: invalid first frame specified (beyond clip end)"
  else if last.isSome && length.isSome then .err "Trim: both last frame and length specified"
  else if last.isSome ∧ argS last < f then
    .err "Trim: invalid last frame specified (last is less than first)"
  else if length.isSome ∧ argS length < 1 then .err "Trim: invalid length specified (less than 1)"
  else if (last.isSome ∧ argS last ≥ vi.numFrames) ∨ (length.isSome ∧ argS length > vi.numFrames - f) then
    .err "Trim: last frame beyond clip end"
  else
    let trimlen := trimLen f vi.numFrames last length
    if (first.isNone ∧ last.isNone ∧ length.isNone) ∨ (trimlen ≠ 0 ∧ trimlen = vi.numFrames) then
      .ok (.passthrough 0)
    else
      createVideoFilter "Trim" (trimFilter { vi with numFrames := trimlen } f)

/-! ## Reverse -/

/-- `reverseGetframe`, reorderfilters.cpp:280-290. -/
def reverseFilter (vi : VideoInfo) : VFilter (VFrame α) where
  vi := vi
  initial n := do
    let k ← i32 (vi.numFrames - n - 1)
    pure ([(0, max k 0)], (0, 0))
  ready n _ fetch := do
    let k ← i32 (vi.numFrames - n - 1)
    retFrame (fetch 0 (max k 0))

/-- `reverseCreate`, reorderfilters.cpp:292-301. -/
def reverseCreate (clip : Clip (VFrame α)) : Res (Created (VFrame α)) :=
  createVideoFilter "Reverse" (reverseFilter clip.vi)

/-! ## Loop -/

/-- `loopGetframe`, reorderfilters.cpp:308-318; `n % 0` would be undefined but a node has at least one frame. -/
def loopFilter (vi : VideoInfo) (srcFrames : Int) : VFilter (VFrame α) where
  vi := vi
  initial n := if srcFrames = 0 then .ub else .ok ([(0, n.tmod srcFrames)], (0, 0))
  ready n _ fetch := if srcFrames = 0 then .ub else retFrame (fetch 0 (n.tmod srcFrames))

/-- `loopCreate`, reorderfilters.cpp:320-348. -/
def loopCreate (clip : Clip (VFrame α)) (times : Option Int) : Res (Created (VFrame α)) :=
  let t := argS times
  let vi := clip.vi
  if t < 0 then .err "Loop: cannot repeat clip a negative number of times"
  else if t = 1 then .ok (.passthrough 0)
  else if t > 0 then
    if vi.numFrames > INT_MAX.tdiv t then .err "Loop: resulting clip is too long"
    else do
      let nf ← i32 (vi.numFrames * t)
      createVideoFilter "Loop" (loopFilter { vi with numFrames := nf } vi.numFrames)
  else
    createVideoFilter "Loop" (loopFilter { vi with numFrames := INT_MAX } vi.numFrames)

/-! ## Mismatch detection shared by Interleave and Splice -/

/-- The fields of `MismatchInfo` that matter for control flow, and the common `VSVideoInfo`. -/
structure CommonVi where
  vi : VideoInfo
  differentDimensions : Bool := false
  differentFormat : Bool := false
  differentFrameRate : Bool := false

/-- `result.match`, reorderfilters.cpp:77. -/
def CommonVi.matches (c : CommonVi) : Bool :=
  !c.differentDimensions && !c.differentFormat && !c.differentFrameRate

/-- Dimensions, reorderfilters.cpp:50-56. -/
def stepDims (c : CommonVi) (vi : VideoInfo) : CommonVi :=
  if c.vi.width ≠ vi.width ∨ c.vi.height ≠ vi.height then
    { c with vi := { c.vi with width := 0, height := 0 }, differentDimensions := true } else c

/-- Format, reorderfilters.cpp:58-63. -/
def stepFmt (c : CommonVi) (vi : VideoInfo) : CommonVi :=
  if c.vi.fmt ≠ vi.fmt then { c with vi := { c.vi with fmt := 0 }, differentFormat := true } else c

/-- Frame rate, reorderfilters.cpp:65-71. -/
def stepFps (c : CommonVi) (vi : VideoInfo) : CommonVi :=
  if c.vi.fpsNum ≠ vi.fpsNum ∨ c.vi.fpsDen ≠ vi.fpsDen then
    { c with vi := { c.vi with fpsNum := 0, fpsDen := 0 }, differentFrameRate := true } else c

/-- Length, reorderfilters.cpp:73-74. -/
def stepFrames (c : CommonVi) (vi : VideoInfo) : CommonVi :=
  if c.vi.numFrames < vi.numFrames then { c with vi := { c.vi with numFrames := vi.numFrames } } else c

/-- One iteration of the loop of `findCommonVi`, reorderfilters.cpp:47-75. -/
def commonViStep (c : CommonVi) (vi : VideoInfo) : CommonVi :=
  stepFrames (stepFps (stepFmt (stepDims c vi) vi) vi) vi

/-- `findCommonVi`, reorderfilters.cpp:42-80. -/
def findCommonVi (first : VideoInfo) (rest : List VideoInfo) : CommonVi :=
  rest.foldl commonViStep { vi := first }

/-! ## Interleave -/

/-- The duration update shared by Interleave and SelectEvery, reorderfilters.cpp:199-207, 379-387. -/
def retime (f : VFrame α) (mul div : Int) : Res (VFrame α) :=
  match f.durNum, f.durDen with
  | some a, some b => do
    let (a', b') ← muldivRational a b mul div
    pure { f with durNum := some a', durDen := some b' }
  | _, _ => .ok f

/-- `interleaveGetframe`, reorderfilters.cpp:188-215. -/
def interleaveFilter (vi : VideoInfo) (numclips : Int) (modifyDuration : Bool) : VFilter (VFrame α) where
  vi := vi
  initial n := .ok ([((n.tmod numclips).toNat, n.tdiv numclips)], (0, 0))
  ready n _ fetch :=
    match fetch (n.tmod numclips).toNat (n.tdiv numclips) with
    | none => if modifyDuration then .ub else .fatal "No frame returned at the end of processing"
    | some src => if modifyDuration then retime src 1 numclips else .ok src

/-- The frame count loop without `extend`, reorderfilters.cpp:248-255: `i` is the loop index.
Returns the count and the overflow flag. -/
def interleaveCount (numclips : Int) : (i : Int) → List Int → Int → Bool → Res (Int × Bool)
  | _, [], acc, ov => .ok (acc, ov)
  | i, clipFrames :: rest, acc, ov =>
    if clipFrames > (INT_MAX - i - 1).tdiv numclips + 1 then
      interleaveCount numclips (i + 1) rest acc true
    else do
      let v ← i32 ((clipFrames - 1) * numclips + i + 1)
      interleaveCount numclips (i + 1) rest (max acc v) ov

/-- Frame count and overflow flag, reorderfilters.cpp:240-256. With `extend` the product is computed
even when the overflow has been noticed (line 245), which is undefined behaviour. -/
def interleaveFrames (extend : Bool) (common : Int) (counts : List Int) : Res (Int × Bool) :=
  let m : Int := counts.length
  if extend then do
    let overflow := decide (common > INT_MAX.tdiv m)
    let nf ← i32 (common * m)
    pure (nf, overflow)
  else interleaveCount m 0 counts 0 false

/-- `interleaveCreate`, reorderfilters.cpp:217-273. `clips` is non-empty (argument `vnode[]`). -/
def interleaveCreate (clips : List (Clip (VFrame α))) (extend mismatch modifyDuration : Option Int) :
    Res (Created (VFrame α)) :=
  match clips with
  | [] => .ub
  | [_] => .ok (.passthrough 0)
  | c0 :: rest =>
    let m : Int := clips.length
    let common := findCommonVi c0.vi (rest.map (·.vi))
    if !common.matches && !flag mismatch then .err "Interleave: clips are mismatched"
    else do
      let (nf, overflow) ← interleaveFrames (flag extend) common.vi.numFrames (clips.map (·.vi.numFrames))
      if overflow then .err "Interleave: resulting clip is too long"
      else
        let vi := { common.vi with numFrames := nf }
        if flagT modifyDuration then do
          let (a, b) ← muldivRational vi.fpsNum vi.fpsDen m 1
          createVideoFilter "Interleave" (interleaveFilter { vi with fpsNum := a, fpsDen := b } m true)
        else createVideoFilter "Interleave" (interleaveFilter vi m false)

/-! ## SelectEvery -/

/-- Instance data of SelectEvery, reorderfilters.cpp:353-360. -/
structure SelectEveryData where
  offsets : List Int
  tailOffsets : List Int
  cycle : Int
  fullCycles : Int
  modifyDuration : Bool

/-- Number of offsets. -/
def SelectEveryData.num (d : SelectEveryData) : Int := d.offsets.length

/-- Source frame number, reorderfilters.cpp:367-373; an index outside the vector is undefined. -/
def selectEverySrc (d : SelectEveryData) (n : Int) : Res Int :=
  if d.num = 0 then .ub
  else
    let cyc := n.tdiv d.num
    match (if cyc = d.fullCycles then d.tailOffsets else d.offsets)[(n.tmod d.num).toNat]? with
    | none => .ub
    | some off => do
      let base ← i32 (cyc * d.cycle)
      i32 (base + off)

/-- `selectEveryGetframe`, reorderfilters.cpp:364-396. -/
def selectEveryFilter (vi : VideoInfo) (d : SelectEveryData) : VFilter (VFrame α) where
  vi := vi
  initial n := do
    let k ← selectEverySrc d n
    pure ([(0, k)], (k, 0))
  ready _ st fetch :=
    match fetch 0 st.1 with
    | none => if d.modifyDuration then .ub else .fatal "No frame returned at the end of processing"
    | some src => if d.modifyDuration then retime src d.cycle d.num else .ok src

/-- `selectEveryCreate`, reorderfilters.cpp:398-456. -/
def selectEveryCreate (clip : Clip (VFrame α)) (cycle : Int) (offsets : List Int)
    (modifyDuration : Option Int) : Res (Created (VFrame α)) :=
  let cyc := int64ToIntS cycle
  if cyc ≤ 1 then .err "SelectEvery: invalid cycle size (must be greater than 1)"
  else
    let offs := offsets.map int64ToIntS
    if offs.any (fun o => decide (o < 0) || decide (o ≥ cyc)) then
      .err "SelectEvery: invalid offset specified"
    else
      let nIn := clip.vi.numFrames
      let fullCycles := nIn.tdiv cyc
      let tail := offs.filter (fun o => decide (o < nIn.tmod cyc))
      let d : SelectEveryData := ⟨offs, tail, cyc, fullCycles, flagT modifyDuration⟩
      let numFrames := if nIn ≠ 0 then fullCycles * d.num + tail.length else nIn
      if nIn ≠ 0 ∧ numFrames > INT_MAX then .err "SelectEvery: resulting clip is too long"
      else if numFrames = 0 then
        .err "SelectEvery: no frames to output, all offsets outside available frames"
      else
        let vi := { clip.vi with numFrames := numFrames }
        if d.modifyDuration then do
          let (a, b) ← muldivRational vi.fpsNum vi.fpsDen d.num cyc
          createVideoFilter "SelectEvery" (selectEveryFilter { vi with fpsNum := a, fpsDen := b } d)
        else createVideoFilter "SelectEvery" (selectEveryFilter vi d)

/-! ## Splice -/

/-- The search loop of `spliceGetframe`, reorderfilters.cpp:472-484: `(clip index, frame)`.
The last clip is taken unconditionally. -/
def spliceFind (n : Int) : (idx : Nat) → (cumframe : Int) → List Int → Res (Nat × Int)
  | _, _, [] => .ok (0, 0)
  | idx, cum, nf :: rest => do
    let hit ← (if n ≥ cum then do let e ← i32 (cum + nf); pure (decide (n < e)) else pure false)
    if hit || rest.isEmpty then do
      let fr ← i32 (n - cum)
      pure (idx, fr)
    else do
      let cum ← i32 (cum + nf)
      spliceFind n (idx + 1) cum rest

/-- `spliceGetframe`, reorderfilters.cpp:468-495. -/
def spliceFilter (vi : VideoInfo) (numframes : List Int) : VFilter (VFrame α) where
  vi := vi
  initial n := do
    let (idx, fr) ← spliceFind n 0 0 numframes
    pure ([(idx, fr)], ((idx : Int), fr))
  ready _ st fetch := retFrame (fetch st.1.toNat st.2)

/-- The frame count loop, reorderfilters.cpp:520-526; `none` = too long. -/
def spliceCount : List Int → Int → Option Int
  | [], acc => some acc
  | nf :: rest, acc => if nf > INT_MAX - acc then none else spliceCount rest (acc + nf)

/-- `isSameVideoInfo`, include/VSHelper4.h:103-105 (used by Splice, line 514). -/
def isSameVideoInfo (a b : VideoInfo) : Bool :=
  decide (a.height = b.height) && decide (a.width = b.width) && decide (a.fmt = b.fmt)

/-- `spliceCreate`, reorderfilters.cpp:497-534. `clips` is non-empty (argument `vnode[]`). -/
def spliceCreate (clips : List (Clip (VFrame α))) (mismatch : Option Int) : Res (Created (VFrame α)) :=
  match clips with
  | [] => .ub
  | [_] => .ok (.passthrough 0)
  | c0 :: rest =>
    let common := findCommonVi c0.vi (rest.map (·.vi))
    if !common.matches && !flag mismatch && !isSameVideoInfo common.vi c0.vi then
      .err "Splice: clips are mismatched"
    else
      let counts := clips.map (·.vi.numFrames)
      match spliceCount counts 0 with
      | none => .err "Splice: the resulting clip is too long"
      | some nf => createVideoFilter "Splice" (spliceFilter { common.vi with numFrames := nf } counts)

/-! ## DuplicateFrames -/

/-- The loop of `duplicateFramesGetFrame`, reorderfilters.cpp:550-554. -/
def dupSrc : List Int → Int → Int
  | [], n => n
  | d :: ds, n => if n > d then dupSrc ds (n - 1) else n

/-- `duplicateFramesGetFrame`, reorderfilters.cpp:546-564. -/
def duplicateFilter (vi : VideoInfo) (dups : List Int) : VFilter (VFrame α) where
  vi := vi
  initial n := .ok ([(0, dupSrc dups n)], (dupSrc dups n, 0))
  ready _ st fetch := retFrame (fetch 0 st.1)

/-- `std::sort` on integers. -/
def sortInts (l : List Int) : List Int := l.mergeSort (fun a b => decide (a ≤ b))

/-- `duplicateFramesCreate`, reorderfilters.cpp:566-592. -/
def duplicateCreate (clip : Clip (VFrame α)) (frames : List Int) : Res (Created (VFrame α)) :=
  let dups := frames.map int64ToIntS
  let vi := clip.vi
  if dups.any (fun d => decide (d < 0) || (decide (vi.numFrames ≠ 0) && decide (d > vi.numFrames - 1))) then
    .err "DuplicateFrames: out of bounds frame number"
  else
    let dups := sortInts dups
    let num : Int := dups.length
    if num > INT_MAX - vi.numFrames then .err "DuplicateFrames: resulting clip is too long"
    else createVideoFilter "DuplicateFrames"
      (duplicateFilter { vi with numFrames := vi.numFrames + num } dups)

/-! ## DeleteFrames -/

/-- The loop of `deleteFramesGetFrame`, reorderfilters.cpp:608-612. -/
def delSrc : List Int → Int → Res Int
  | [], n => .ok n
  | d :: ds, n => if n ≥ d then do let n ← i32 (n + 1); delSrc ds n else .ok n

/-- `deleteFramesGetFrame`, reorderfilters.cpp:604-620. -/
def deleteFilter (vi : VideoInfo) (del : List Int) : VFilter (VFrame α) where
  vi := vi
  initial n := do
    let k ← delSrc del n
    pure ([(0, k)], (k, 0))
  ready _ st fetch := retFrame (fetch 0 st.1)

/-- The neighbour comparison of `deleteFramesCreate`, reorderfilters.cpp:641-644. -/
def hasAdjacentEqual : List Int → Bool
  | a :: b :: rest => decide (a = b) || hasAdjacentEqual (b :: rest)
  | _ => false

/-- `deleteFramesCreate`, reorderfilters.cpp:622-654. -/
def deleteCreate (clip : Clip (VFrame α)) (frames : List Int) : Res (Created (VFrame α)) :=
  let del := frames.map int64ToIntS
  let vi := clip.vi
  if del.any (fun d => decide (d < 0) || (decide (vi.numFrames ≠ 0) && decide (d ≥ vi.numFrames))) then
    .err "DeleteFrames: out of bounds frame number"
  else
    let del := sortInts del
    if hasAdjacentEqual del then .err "DeleteFrames: can't delete a frame more than once"
    else
      let nf := if vi.numFrames ≠ 0 then vi.numFrames - del.length else vi.numFrames
      if vi.numFrames ≠ 0 ∧ nf ≤ 0 then .err "DeleteFrames: can't delete all frames"
      else createVideoFilter "DeleteFrames" (deleteFilter { vi with numFrames := nf } del)

/-! ## FreezeFrames -/

/-- `struct Freeze`, reorderfilters.cpp:659-666. -/
structure Freeze where
  first : Int
  last : Int
  replacement : Int
  deriving Repr, DecidableEq

/-- The lookup of `freezeFramesGetFrame`, reorderfilters.cpp:678-683. -/
def freezeSrc (fr : List Freeze) (n : Int) : Res Int :=
  match fr.head?, fr.getLast? with
  | some a, some b =>
    if n ≥ a.first ∧ n ≤ b.last then
      match fr.find? (fun f => decide (n ≥ f.first) && decide (n ≤ f.last)) with
      | some f => .ok f.replacement
      | none => .ok n
    else .ok n
  | _, _ => .ub

/-- `freezeFramesGetFrame`, reorderfilters.cpp:674-693. -/
def freezeFilter (vi : VideoInfo) (fr : List Freeze) : VFilter (VFrame α) where
  vi := vi
  initial n := do
    let k ← freezeSrc fr n
    pure ([(0, k)], (k, 0))
  ready _ st fetch := retFrame (fetch 0 st.1)

/-- Reading one triple and ordering its ends, reorderfilters.cpp:712-721. -/
def mkFreeze (first last replacement : Int) : Freeze :=
  let a := int64ToIntS first
  let b := int64ToIntS last
  if a > b then ⟨b, a, int64ToIntS replacement⟩ else ⟨a, b, int64ToIntS replacement⟩

/-- The bounds check, reorderfilters.cpp:723-725. -/
def freezeBad (numFrames : Int) (f : Freeze) : Bool :=
  decide (f.first < 0) || (decide (numFrames ≠ 0) && decide (f.last ≥ numFrames)) ||
    decide (f.replacement < 0) || (decide (numFrames ≠ 0) && decide (f.replacement ≥ numFrames))

/-- The overlap check on the sorted list, reorderfilters.cpp:730-732. -/
def hasOverlap : List Freeze → Bool
  | a :: b :: rest => decide (a.last ≥ b.first) || hasOverlap (b :: rest)
  | _ => false

/-- Zipping the three argument arrays, reorderfilters.cpp:712-715. -/
def zipFreeze : List Int → List Int → List Int → List Freeze
  | a :: as, b :: bs, c :: cs => mkFreeze a b c :: zipFreeze as bs cs
  | _, _, _ => []

/-- `freezeFramesCreate`, reorderfilters.cpp:695-736. `std::sort` with `operator<` on `first`. -/
def freezeCreate (clip : Clip (VFrame α)) (first last replacement : List Int) : Res (Created (VFrame α)) :=
  if first.length ≠ last.length ∨ first.length ≠ replacement.length then
    .err "FreezeFrames: 'first', 'last', and 'replacement' must have the same length."
  else if first.length = 0 then .ok (.passthrough 0)
  else
    let fr := zipFreeze first last replacement
    if fr.any (freezeBad clip.vi.numFrames) then .err "FreezeFrames: out of bounds frame number(s)"
    else
      let fr := fr.mergeSort (fun a b => decide (a.first ≤ b.first))
      if hasOverlap fr then .err "FreezeFrames: the frame ranges must not overlap"
      else createVideoFilter "FreezeFrames" (freezeFilter clip.vi fr)

end VS.Reorder
