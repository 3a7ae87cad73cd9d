import Verif.Generic.ConvModel

/-!
# AverageFrames

Model of src/core/averageframesfilter.cpp.

Simplification: the functions for a fixed number of frames (`average_int_n` and so on) are those for any number
with unrolled loops; only the latter are modelled.
-/

namespace VS.Average
open VS VS.Format VS.Map VS.Map.Spec VS.Pix VS.Point VS.Pixel VS.Generic

/-- Floating point arithmetic, with averages of float samples. -/
structure AFloats extends Generic.Floats where
  /-- `average_float` and `average_half`, averageframesfilter.cpp:103-217: weights, `scale`, the first and the last frame of the scene
  and the samples -/
  avg : Kind → List Nat → Option Nat → Nat → Nat → List Nat → Nat

variable (F : AFloats)

/-! ## Kernel -/

/-- The sum over the frames, averageframesfilter.cpp:90-94: the range of a difference, a product and a sum of type `int32_t`. -/
def accum (bias : Int) : List (Nat × Int) → Int → Res Int
  | [], a => .ok a
  | (v, w) :: t, a => do
    let p ← i32 (((v : Int) - bias) * w)
    let a ← i32 (a + p)
    accum bias t a

/-- The sum divided by the scale, averageframesfilter.cpp:96-97. -/
def avgOut (scale : Int) (maxval : Nat) (bias a : Int) : Res Nat := do
  let q ← i32 (lrint (F.rnd (F.rnd a * F.rnd (1 / F.rnd scale))))
  let r ← i32 (q + bias)
  .ok (min (max r 0) maxval).toNat

/-- Read the samples at an address in the planes of all frames. -/
def readEach (n : Nat) (off : Nat) : List Buf → Res (List Nat)
  | [] => .ok []
  | b :: t => do
    let v ← rd b n off
    let l ← readEach n off t
    .ok (v :: l)

/-- The pointers to plane `p` of all frames, averageframesfilter.cpp:338-340. -/
def readPtrs (p : Nat) : List Frm → Res (List Buf)
  | [] => .ok []
  | f :: t => do
    let b ← f.plane p
    let l ← readPtrs p t
    .ok (b :: l)

/-- What a frame needs to know: the weights, the scale and the first and last frame of the scene. -/
structure Plan where
  weights : List Int
  scale : Int
  floats : Kind → List Nat → Nat

/-- `average_int`, averageframesfilter.cpp:82-100 and 171-185. -/
def avgInt (f : VFmt) (p : Nat) (pl : Plan) (vals : List Nat) : Res Nat := do
  let bias : Int := if (p = 1 ∨ p = 2) ∧ f.colorFamily = cfYUV then 2 ^ (f.bitsPerSample.toNat - 1) else 0
  let a ← accum bias (vals.zip pl.weights) 0
  avgOut F pl.scale (2 ^ f.bitsPerSample.toNat - 1) bias a

/-- A sample. -/
def avgCell (k : Kind) (f : VFmt) (p : Nat) (pl : Plan) (vals : List Nat) : Res Nat :=
  match k with
  | .byte | .word => avgInt F f p pl vals
  | k => .ok (pl.floats k vals)

/-- A plane, averageframesfilter.cpp:332-356: the kernel takes the stride of the new frame for all frames. `src_ptrs` has 32 elements. -/
def avgPlane (al : Nat) (pl : Plan) (frames : List Frm) (dst : Frm) (p : Nat) (b : Buf) : Res Buf :=
  if frames.length > 32 then .ub
  else do
    let bs ← readPtrs p frames
    match pixKind dst.fmt with
    | none => .ok b
    | some k => fill (fun x y => do
        let l ← readEach k.bytes (y * dst.stride al p + x * k.bytes) bs
        avgCell F k dst.fmt p pl l) k.bytes (dst.stride al p) (dst.w p) (dst.h p) b

/-! ## Scene changes -/

/-- `mapGetInt(props, key, 0, &err)` as condition. -/
def flag (key : Key) (f : Frm) : Bool := (propInt f.props key).getD 0 ≠ 0

/-- The loop for the first frame of the scene, averageframesfilter.cpp:283-290: from `i` down to 1. -/
def fromLoop (prev : Nat → Bool) : Nat → Nat
  | 0 => 0
  | i + 1 => if prev (i + 1) then i + 1 else fromLoop prev i

/-- The loop for the last frame, averageframesfilter.cpp:292-299: `k` turns from `i` on; `size` if there is none. -/
def toLoop (next : Nat → Bool) (size : Nat) : Nat → Nat → Nat
  | 0, _ => size
  | k + 1, i => if next i then i else toLoop next size k (i + 1)

/-- The weights that are taken away, averageframesfilter.cpp:302-312, from frame `i` on. -/
def outside (fromFrame toFrame : Nat) : Nat → List Int → Int
  | _, [] => 0
  | i, w :: t => (if toFrame < i ∨ i < fromFrame then w else 0) + outside fromFrame toFrame (i + 1) t

/-- The weights with those of other scenes set to 0, from frame `i` on. -/
def cleared (fromFrame toFrame : Nat) : Nat → List Int → List Int
  | _, [] => []
  | i, w :: t => (if toFrame < i ∨ i < fromFrame then 0 else w) :: cleared fromFrame toFrame (i + 1) t

/-- The new weights, averageframesfilter.cpp:301-314. -/
def moved (fromFrame toFrame : Nat) (ws : List Int) : List Int :=
  (cleared fromFrame toFrame 0 ws).set (ws.length / 2) ((cleared fromFrame toFrame 0 ws).getD (ws.length / 2) 0 + outside fromFrame toFrame 0 ws)

/-! ## Filter -/

/-- The arguments. -/
structure Setup where
  weights : List Int
  size : Nat
  scale : Int
  /-- weights, `scale`, the first and the last frame of the scene -/
  floats : Nat → Nat → Kind → List Nat → Nat
  scenes : Bool
  process : List Bool

/-- The weights for a frame, averageframesfilter.cpp:276-330. -/
def planFor (s : Setup) (frames : List Frm) : Plan :=
  let at' := fun (key : Key) (i : Nat) => match frames[i]? with | some f => flag key f | none => false
  let a := if s.scenes then fromLoop (at' "_SceneChangePrev") (s.size / 2) else 0
  let b := if s.scenes then toLoop (at' "_SceneChangeNext") s.size (s.size - 1 - s.size / 2) (s.size / 2) else s.size
  ⟨if s.scenes then moved a b s.weights else s.weights, s.scale, s.floats a b⟩

/-- The frames that are requested, averageframesfilter.cpp:237-248. -/
def avgReqs (clips size n : Nat) : List (Nat × Nat) :=
  if clips = 1 then
    let last := if n > 2 ^ 31 - 2 - size / 2 then 2 ^ 31 - 2 else n + size / 2
    (List.range' (n - size / 2) (last + 1 - (n - size / 2))).map fun i => (0, i)
  else (List.range clips).map fun i => (i, n)

/-- The loop over the frames of a single clip, averageframesfilter.cpp:253-258. -/
def getSingle (get : Nat → Nat → Res Frm) : Nat → Int → Res (List Frm)
  | 0, _ => .ok []
  | k + 1, fn => do
    let f ← get 0 (max 0 fn).toNat
    let l ← getSingle get k (if fn < 2 ^ 31 - 2 then fn + 1 else fn)
    .ok (f :: l)

/-- The loop over the clips, averageframesfilter.cpp:260-261. -/
def getEach (get : Nat → Nat → Res Frm) (n : Nat) : Nat → Nat → Res (List Frm)
  | 0, _ => .ok []
  | k + 1, i => do
    let f ← get i n
    let l ← getEach get n k (i + 1)
    .ok (f :: l)

/-- The frames. -/
def getFrames (get : Nat → Nat → Res Frm) (clips size n : Nat) : Res (List Frm) :=
  if clips = 1 then getSingle get size ((n : Int) - (size / 2 : Nat)) else getEach get n size 0

/-- The new frame, averageframesfilter.cpp:264-361. -/
def avgFrame (al : Nat) (s : Setup) (clips : Nat) (frames : List Frm) (junk : Junk) : Res Frm :=
  match frames[if clips = 1 then frames.length / 2 else 0]? with
  | none => .ub
  | some center => do
    let srcs := [0, 1, 2].map fun p : Nat => if s.process.getD p false then none else some (center, (p : Int))
    let dst ← newVideoFrameOpt al center.fmt center.width center.height srcs center.props junk
    dst.build fun p b => if s.process.getD p false then avgPlane F al (planFor s frames) frames dst p b else .ok b

/-- `averageFramesGetFrame`, averageframesfilter.cpp:235-365. -/
def avgFilter (al : Nat) (vi : VInfo) (clips : Nat) (s : Setup) : PFilter :=
  ⟨vi, avgReqs clips s.size, fun n get junk => do
    let frames ← getFrames get clips s.size n
    avgFrame F al s clips frames junk⟩

/-! ## Arguments -/

/-- Do the numbers of clips and weights match? averageframesfilter.cpp:374-385. -/
def countError (clips weights : Nat) (scenes : Bool) : Option String :=
  if clips = 1 ∧ weights % 2 ≠ 1 then some "AverageFrames: Number of weights must be odd when only one clip supplied"
  else if clips ≠ 1 ∧ weights ≠ clips then some "AverageFrames: Number of weights must match number of clips supplied"
  else if weights > 31 ∨ clips > 31 then some "AverageFrames: Must use between 1 and 31 weights and input clips"
  else if clips ≠ 1 ∧ scenes then some "AverageFrames: Scenechange can only be used in single clip mode"
  else none

/-- The loop over the other clips, averageframesfilter.cpp:398-403. -/
def sameInfos : VInfo → List VInfo → Res VInfo
  | vi, [] => .ok vi
  | vi, v :: t =>
    if isSameVideoInfo { vi with numFrames := max vi.numFrames v.numFrames } v then
      sameInfos { vi with numFrames := max vi.numFrames v.numFrames } t
    else .err "AverageFrames: All clips must have the same format"

/-- The weights, averageframesfilter.cpp:405-419. -/
def getWeights (f : VFmt) : List Nat → Res (List Int)
  | [] => .ok []
  | b :: t =>
    match F.value b with
    | none => .err "AverageFrames: weights must be finite"
    | some q =>
      if f.sampleType = stInteger then
        if roundAway q < -1023 ∨ roundAway q > 1023 then .err "AverageFrames: coefficients may only be between -1023 and 1023"
        else do
          let l ← getWeights f t
          .ok (roundAway q :: l)
      else do
        let l ← getWeights f t
        .ok (0 :: l)

/-- The conversion of a 64 bit number to `int`. -/
def wrap32 (z : Int) : Int := (z + 2 ^ 31) % 2 ^ 32 - 2 ^ 31

/-- `floatToIntS`, src/core/filtershared.h:51-58: `INT_MAX` is 2^31 in single precision. The result of `lround` has 64 bits. -/
def floatToIntS (q : Rat) : Int := if q > 2 ^ 31 then 2 ^ 31 - 1 else if q < -2 ^ 31 then -2 ^ 31 else wrap32 (roundAway q)

/-- The argument `scale`, averageframesfilter.cpp:421-449; the value for float clips is part of `avg`. -/
def getScale (f : VFmt) (arg : Option Nat) (ws : List Int) : Res Int :=
  match arg with
  | none => .ok (if ws.sum < 1 then 1 else ws.sum)
  | some b =>
    match single F.toFloats b with
    | none => .err "AverageFrames: scale must be a positive number"
    | some q =>
      if f.sampleType = stInteger then
        if floatToIntS q < 1 then .err "AverageFrames: scale must be a positive number" else .ok (floatToIntS q)
      else if q < 1 / 2 ^ 23 then .err "AverageFrames: scale must be a positive number"
      else .ok 1

/-- `averageFramesCreate`, averageframesfilter.cpp:367-469. The arguments are never empty. -/
def averageCreate (al : Nat) (vis : List VInfo) (weights : List Nat) (scale : Option Nat) (scenechange : Option Int) (planes : List Int) :
    Res Created :=
  let scenes := decide (scenechange.getD 0 ≠ 0)
  match countError vis.length weights.length scenes with
  | some m => .err m
  | none =>
    match vis with
    | [] => .ub
    | vi :: rest =>
      if !is8to16orFloat vi.format then .err (badFormat "AverageFrames")
      else if vi.width = 0 ∨ vi.height = 0 then .err "AverageFrames: clips must have constant dimensions"
      else do
        let vi ← sameInfos vi rest
        let ws ← getWeights F vi.format weights
        let sc ← getScale F vi.format scale ws
        let process ← getPlanesArg "AverageFrames" planes
        create (avgFilter F al vi vis.length ⟨ws, weights.length, sc, fun a b k => F.avg k weights scale a b, scenes, process⟩)

end VS.Average
