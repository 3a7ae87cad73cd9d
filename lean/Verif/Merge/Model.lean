import Verif.Merge.Kernel
import Verif.Point.Mem

/-!
# PreMultiply, Merge, MaskedMerge, MakeDiff, MakeFullDiff, MergeDiff and MergeFullDiff

Model of src/core/mergefilters.cpp with the plain C kernels. Frames and clips are those of `Verif/Pix`.

Simplifications: floating point samples are bit patterns and their kernels are arbitrary functions (`Floats`); the weights
of Merge are rational numbers or not a number (`none`); an error message does not name the formats; the resized masks that
PreMultiply and MaskedMerge get from the resize plugin are further input clips; which of them is requested depends on the
frame, here all of them are requested.
-/

namespace VS.Merge
open VS VS.Format VS.Map VS.Map.Spec VS.Pix VS.Point

/-- Floating point arithmetic: rounding to `float` of a sum, and the kernels for 32 and 16 bit samples. -/
structure Floats where
  rnd : Rat → Rat
  premul : Kind → Nat → Nat → Nat
  merge : Kind → Rat → Nat → Nat → Nat
  mask : Kind → Nat → Nat → Nat → Nat
  maskPre : Kind → Nat → Nat → Nat → Nat
  makeDiff : Kind → Nat → Nat → Nat
  mergeDiff : Kind → Nat → Nat → Nat

variable (F : Floats)

/-- The loops of a kernel with two sources over plane `p` of `s1` and plane `q` of `s2`; the strides are those that the
code uses. `n1` and `n2` are the sizes of the samples. -/
def plane2 (s1 s2 : Frm) (p q n1 st1 n2 st2 n st w h : Nat) (px : Nat → Nat → Res Nat) (b : Buf) : Res Buf := do
  let b1 ← s1.plane p
  let b2 ← s2.plane q
  fill (fun x y => do
    let v1 ← rd b1 n1 (y * st1 + x * n1 : Nat)
    let v2 ← rd b2 n2 (y * st2 + x * n2 : Nat)
    px v1 v2) n st w h b

/-- The loops of a kernel with three sources. -/
def plane3 (s1 s2 s3 : Frm) (p q n st w h : Nat) (px : Nat → Nat → Nat → Res Nat) (b : Buf) : Res Buf := do
  let b1 ← s1.plane p
  let b2 ← s2.plane p
  let b3 ← s3.plane q
  fill (fun x y => do
    let v1 ← rd b1 n (y * st + x * n : Nat)
    let v2 ← rd b2 n (y * st + x * n : Nat)
    let v3 ← rd b3 n (y * st + x * n : Nat)
    px v1 v2 v3) n st w h b

/-! ## Merge -/

/-- The array `fweight`, mergefilters.cpp:391-402. It has three elements; further weights are written behind it. -/
def fweights (ws : List (Option Rat)) : Res (List (Option Rat)) :=
  match ws with
  | [] => .ok [some (1 / 2), some (1 / 2), some (1 / 2)]
  | [a] => .ok [a, a, a]
  | [a, b] => .ok [a, b, b]
  | [a, b, c] => .ok [a, b, c]
  | _ => .ub

/-- A weight as a multiple of 1 / 32768, mergefilters.cpp:407. The product is exact. -/
def weightU (w : Rat) : Nat := min (F.rnd (w * 32768 + 1 / 2)).floor.toNat 32767

/-- The check of the weights, mergefilters.cpp:404-408. -/
def checkWeights : List (Option Rat) → Res (List (Rat × Nat))
  | [] => .ok []
  | some w :: t =>
    if 0 ≤ w ∧ w ≤ 1 then do
      let l ← checkWeights t
      .ok ((w, weightU F w) :: l)
    else .err "Merge: weights must be between 0 and 1"
  | none :: _ => .err "Merge: weights must be between 0 and 1"

/-- `process`, mergefilters.cpp:414-427. -/
def mergeProcess (f : VFmt) (w : Rat × Nat) : Nat :=
  if f.sampleType = stInteger then (if w.2 = 0 then 1 else if w.1 = 1 then 2 else 0)
  else if f.sampleType = stFloat then (if w.1 = 0 then 1 else if w.1 = 1 then 2 else 0)
  else 0

/-- The kernel for one sample, mergefilters.cpp:353-369. -/
def mergeKernel (k : Kind) (w : Rat × Nat) (v1 v2 : Nat) : Nat :=
  match k with
  | .byte => mergePx w.2 v1 v2
  | .word => mergePx w.2 v1 v2
  | k => F.merge k w.1 v1 v2

/-- One frame of Merge, mergefilters.cpp:314-382. -/
def mergeFrame (al : Nat) (vi : VInfo) (ws : List (Rat × Nat)) (s1 s2 : Frm) (junk : Junk) : Res Frm := do
  let process (p : Nat) := mergeProcess vi.format (ws.getD p (0, 0))
  let srcs := [0, 1, 2].map fun p : Nat =>
    if process p = 0 then none else if process p = 1 then some (s1, (p : Int)) else some (s2, (p : Int))
  let dst ← newVideoFrameOpt al vi.format vi.width vi.height srcs s1.props junk
  dst.build fun p b =>
    if process p = 0 then
      match kindOf vi.format with
      | none => .ok b
      | some k => plane2 s1 s2 p p k.bytes (s1.stride al p) k.bytes (s1.stride al p) k.bytes (s1.stride al p) (s2.w p) (s1.h p)
          (fun v1 v2 => .ok (mergeKernel F k (ws.getD p (0, 0)) v1 v2)) b
    else .ok b

/-- The filter. -/
def mergeFilter (al : Nat) (vi : VInfo) (ws : List (Rat × Nat)) : PFilter :=
  ⟨vi, fun n => [(0, n), (1, n)], fun n get junk => do
    let s1 ← get 0 n
    let s2 ← get 1 n
    mergeFrame F al vi ws s1 s2 junk⟩

/-- `mergeCreate`, mergefilters.cpp:388-443. -/
def mergeCreate (al : Nat) (a b : VInfo) (weight : List (Option Rat)) : Res Created := do
  let fw ← fweights weight
  let ws ← checkWeights F fw
  if !is8to16orFloat a.format then .err (badFormat "Merge")
  else if !isConstantVideoFormat a || !isSameVideoInfo a b then
    .err "Merge: both clips must have the same constant format and dimensions"
  else if (weight.length : Int) > a.format.numPlanes then .err "Merge: more weights given than the number of planes to merge"
  else create (mergeFilter F al a ws)

/-! ## Ranges and chroma locations -/

/-- `resolveChromaLocation`, mergefilters.cpp:125-131. -/
def resolveChromaLocation (d : Dict) : Nat :=
  match propInt d "_ChromaLocation" with
  | some raw => if raw < 0 ∨ raw > 5 then 0 else raw.toNat
  | none => 0

/-- `getLimitedRangeOffset`, mergefilters.cpp:145-151. -/
def getLimitedRangeOffset (d : Dict) (f : VFmt) : Nat :=
  let limited := match propInt d "_Range" with
    | some r => decide (r = 0)
    | none => decide (f.colorFamily = cfGray ∨ f.colorFamily = cfYUV)
  if limited then 16 * 2 ^ (f.bitsPerSample - 8).toNat else 0

/-- `yuvhandling ? (1 << (depth - 1)) : offset`, mergefilters.cpp:191-193, 219. -/
def planeOffset (f : VFmt) (offset p : Nat) : Nat :=
  if p > 0 ∧ f.colorFamily = cfYUV then 2 ^ (f.bitsPerSample - 1).toNat else offset

/-- Are the chroma planes smaller? mergefilters.cpp:258. -/
def subsampled (f : VFmt) : Bool := decide (f.numPlanes > 1 ∧ (f.subSamplingH > 0 ∨ f.subSamplingW > 0))

/-! ## PreMultiply -/

/-- The kernel for one sample, mergefilters.cpp:204-213. -/
def premulKernel (k : Kind) (depth offset v1 v2 : Nat) : Nat :=
  match k with
  | .byte => premulByte offset v1 v2
  | .word => premulWord depth offset v1 v2
  | k => F.premul k v1 v2

/-- One frame of PreMultiply, mergefilters.cpp:174-230; `s23` is the alpha for the other planes. -/
def premulFrame (al : Nat) (vi : VInfo) (s1 s2 s23 : Frm) (junk : Junk) : Res Frm := do
  let dst ← newVideoFrame al vi.format vi.width vi.height s1.props junk
  dst.build fun p b =>
    match kindOf vi.format with
    | none => .ok b
    | some k => plane2 s1 (if p > 0 then s23 else s2) p 0 k.bytes (s1.stride al p) k.bytes (s1.stride al p) k.bytes
        (s1.stride al p) (s1.w p) (s1.h p) (fun v1 v2 => .ok (premulKernel F k vi.format.bitsPerSample.toNat
          (planeOffset vi.format (getLimitedRangeOffset s1.props vi.format) p) v1 v2)) b

/-- The filter, mergefilters.cpp:153-234. Clip 1 is alpha, clips 2 to 7 are its smaller versions for the six chroma
locations. -/
def premulFilter (al : Nat) (vi : VInfo) : PFilter :=
  ⟨vi, fun n => if subsampled vi.format then (0, n) :: (1, n) :: (List.range 6).map (fun l => (2 + l, n)) else [(0, n), (1, n)],
   fun n get junk => do
    let s1 ← get 0 n
    let s2 ← get 1 n
    let s23 ← get (if subsampled vi.format then 2 + resolveChromaLocation s1.props else 1) n
    premulFrame F al vi s1 s2 s23 junk⟩

/-- `preMultiplyCreate`, mergefilters.cpp:236-290. -/
def premulCreate (al : Nat) (c alpha : VInfo) : Res Created :=
  if !is8to16orFloat c.format then .err (badFormat "PreMultiply")
  else if alpha.format.colorFamily ≠ cfGray ∨ alpha.format.sampleType ≠ c.format.sampleType ∨
      alpha.format.bitsPerSample ≠ c.format.bitsPerSample then
    .err "PreMultiply: alpha clip must be grayscale and same sample format and bitdepth as main clip"
  else if !isConstantVideoFormat c || !isConstantVideoFormat alpha || decide (c.width ≠ alpha.width ∨ c.height ≠ alpha.height) then
    .err "PreMultiply: both clips must have the same constant format and dimensions"
  else create (premulFilter F al c)

/-! ## MaskedMerge -/

/-- The kernel for one sample, mergefilters.cpp:554-563. -/
def maskKernel (k : Kind) (pre : Bool) (depth offset v1 v2 m : Nat) : Nat :=
  match k with
  | .byte => if pre then maskPreByte offset m v1 v2 else maskByte m v1 v2
  | .word => if pre then maskPreWord depth offset m v1 v2 else maskWord depth m v1 v2
  | k => if pre then F.maskPre k m v1 v2 else F.mask k m v1 v2

/-- One frame of MaskedMerge, mergefilters.cpp:482-583; `m23` is the mask for the other planes. -/
def maskedFrame (al : Nat) (vi : VInfo) (first pre : Bool) (process : List Bool) (s1 s2 m m23 : Frm) (junk : Junk) : Res Frm := do
  let proc (p : Nat) := process.getD p false
  if (proc 1 || proc 2) && decide (vi.format.subSamplingW > 0 ∨ vi.format.subSamplingH > 0) &&
      decide (resolveChromaLocation s1.props ≠ resolveChromaLocation s2.props) then
    .err "MaskedMerge: clipa and clipb have different chroma locations"
  else do
    let offset1 := getLimitedRangeOffset s1.props vi.format
    let offset2 := getLimitedRangeOffset s2.props vi.format
    let srcs := [0, 1, 2].map fun p : Nat => if proc p then none else some (s1, (p : Int))
    let dst ← newVideoFrameOpt al vi.format vi.width vi.height srcs s1.props junk
    dst.build fun p b =>
      if proc p then
        if pre ∧ vi.format.sampleType = stInteger ∧ offset1 ≠ offset2 then .err "MaskedMerge: Input frames must have the same range"
        else match kindOf vi.format with
          | none => .ok b
          | some k => plane3 s1 s2 (if p > 0 then m23 else m) p (if first then 0 else p) k.bytes (s1.stride al p) (s2.w p) (s1.h p)
              (fun v1 v2 v3 => .ok (maskKernel F k pre vi.format.bitsPerSample.toNat (planeOffset vi.format offset1 p) v1 v2 v3)) b
      else .ok b

/-- Is the mask resized for the chroma planes? mergefilters.cpp:620-623. -/
def maskResized (vi : VInfo) (first : Bool) (process : List Bool) : Bool :=
  first && decide (vi.format.numPlanes > 1) && decide (vi.format.subSamplingH > 0 ∨ vi.format.subSamplingW > 0) &&
    (process.getD 1 false || process.getD 2 false)

/-- The filter, mergefilters.cpp:459-587. Clip 2 is the mask, clips 3 to 8 are its smaller versions. -/
def maskedFilter (al : Nat) (vi : VInfo) (first pre : Bool) (process : List Bool) : PFilter :=
  ⟨vi, fun n => if maskResized vi first process then (0, n) :: (1, n) :: (2, n) :: (List.range 6).map (fun l => (3 + l, n))
      else [(0, n), (1, n), (2, n)],
   fun n get junk => do
    let s1 ← get 0 n
    let s2 ← get 1 n
    let m ← get 2 n
    let m23 ← get (if maskResized vi first process then 3 + resolveChromaLocation s1.props else 2) n
    maskedFrame F al vi first pre process s1 s2 m m23 junk⟩

/-- `maskedMergeCreate`, mergefilters.cpp:589-676. -/
def maskedCreate (al : Nat) (a b mask : VInfo) (planes : List Int) (firstPlane premultiplied : Option Int) : Res Created :=
  let first := decide (firstPlane.getD 0 ≠ 0) || decide (mask.format.numPlanes = 1)
  let pre := decide (premultiplied.getD 0 ≠ 0)
  if !is8to16orFloat a.format then .err (badFormat "MaskedMerge")
  else if !isConstantVideoFormat a || !isSameVideoInfo a b then
    .err "MaskedMerge: both clips must have the same constant format and dimensions"
  else if mask.width ≠ a.width ∨ mask.height ≠ a.height ∨ mask.format.bitsPerSample ≠ a.format.bitsPerSample ∨
      (isSameVideoFormat mask.format a.format = false ∧ mask.format.colorFamily ≠ cfGray ∧ first = false) then
    .err "MaskedMerge: mask clip must have same dimensions as main clip and be the same format or grayscale"
  else do
    let process ← getProcessPlanesArg "MaskedMerge" planes
    create (maskedFilter F al a first pre process)

/-! ## MakeDiff and MergeDiff -/

/-- The kernel for one sample, mergefilters.cpp:732-741 and 948-957. -/
def diffKernel (make : Bool) (k : Kind) (depth v1 v2 : Nat) : Nat :=
  match k with
  | .byte => if make then makeDiffByte v1 v2 else mergeDiffByte v1 v2
  | .word => if make then makeDiffWord depth v1 v2 else mergeDiffWord depth v1 v2
  | k => if make then F.makeDiff k v1 v2 else F.mergeDiff k v1 v2

/-- One frame of MakeDiff, mergefilters.cpp:696-759, or MergeDiff, 912-975. -/
def diffFrame (al : Nat) (make : Bool) (vi : VInfo) (process : List Bool) (s1 s2 : Frm) (junk : Junk) : Res Frm := do
  let srcs := [0, 1, 2].map fun p : Nat => if process.getD p false then none else some (s1, (p : Int))
  let dst ← newVideoFrameOpt al vi.format vi.width vi.height srcs s1.props junk
  dst.build fun p b =>
    if process.getD p false then
      match kindOf vi.format with
      | none => .ok b
      | some k => plane2 s1 s2 p p k.bytes (s1.stride al p) k.bytes (s1.stride al p) k.bytes (s1.stride al p)
          (if make then s2.w p else s1.w p) (s1.h p)
          (fun v1 v2 => .ok (diffKernel F make k vi.format.bitsPerSample.toNat v1 v2)) b
    else .ok b

/-- The filter. -/
def diffFilter (al : Nat) (make : Bool) (vi : VInfo) (process : List Bool) : PFilter :=
  ⟨vi, fun n => [(0, n), (1, n)], fun n get junk => do
    let s1 ← get 0 n
    let s2 ← get 1 n
    diffFrame F al make vi process s1 s2 junk⟩

/-- `makeDiffCreate`, mergefilters.cpp:765-786, and `mergeDiffCreate`, 981-1002. -/
def diffCreate (al : Nat) (make : Bool) (a b : VInfo) (planes : List Int) : Res Created :=
  let name := if make then "MakeDiff" else "MergeDiff"
  if !is8to16orFloat a.format then .err (badFormat name)
  else if !isConstantVideoFormat a || !isSameVideoInfo a b then
    .err (name ++ ": both clips must have the same constant format and dimensions")
  else do
    let process ← getProcessPlanesArg name planes
    create (diffFilter F al make a process)

/-! ## MakeFullDiff and MergeFullDiff -/

/-- What a kernel reads and writes: the bytes of the first and second source and of the destination. -/
structure Sizes where
  n1 : Nat
  n2 : Nat
  n : Nat

/-- The kernel of MakeFullDiff, mergefilters.cpp:834-844. -/
def makeFullKernel (f : VFmt) : Option (Sizes × (Nat → Nat → Res Nat)) :=
  if f.sampleType = stInteger ∧ f.bitsPerSample = 8 then some (⟨1, 1, 2⟩, fun v1 v2 => .ok (makeFullByte v1 v2))
  else if f.sampleType = stInteger ∧ f.bitsPerSample < 16 then
    some (⟨2, 2, 2⟩, fun v1 v2 => .ok (makeFullWord f.bitsPerSample.toNat v1 v2))
  else if f.sampleType = stInteger ∧ f.bitsPerSample = 16 then
    some (⟨2, 2, 4⟩, fun v1 v2 => .ok (makeFullDword f.bitsPerSample.toNat v1 v2))
  else if f.sampleType = stFloat ∧ f.bitsPerSample = 32 then some (⟨4, 4, 4⟩, fun v1 v2 => .ok (F.makeDiff .single v1 v2))
  else if f.sampleType = stFloat ∧ f.bitsPerSample = 16 then some (⟨2, 2, 2⟩, fun v1 v2 => .ok (F.makeDiff .half v1 v2))
  else none

/-- The kernel of MergeFullDiff, mergefilters.cpp:1048-1059. -/
def mergeFullKernel (f : VFmt) : Option (Sizes × (Nat → Nat → Res Nat)) :=
  if f.sampleType = stInteger ∧ f.bitsPerSample = 8 then some (⟨1, 2, 1⟩, fun v1 v2 => .ok (mergeFullByte v1 v2))
  else if f.sampleType = stInteger ∧ f.bitsPerSample < 16 then
    some (⟨2, 2, 2⟩, fun v1 v2 => .ok (mergeFullWord f.bitsPerSample.toNat v1 v2))
  else if f.sampleType = stInteger ∧ f.bitsPerSample = 16 then some (⟨2, 4, 2⟩, mergeFullDword f.bitsPerSample.toNat)
  else if f.sampleType = stFloat ∧ f.bitsPerSample = 32 then some (⟨4, 4, 4⟩, fun v1 v2 => .ok (F.mergeDiff .single v1 v2))
  else if f.sampleType = stFloat ∧ f.bitsPerSample = 16 then some (⟨2, 2, 2⟩, fun v1 v2 => .ok (F.mergeDiff .half v1 v2))
  else none

/-- The format of the result of MakeFullDiff, mergefilters.cpp:881-885. -/
def fullVi (vi : VInfo) : VInfo :=
  if vi.format.sampleType = stInteger then
    { vi with format := { vi.format with
        bitsPerSample := vi.format.bitsPerSample + 1
        bytesPerSample := if vi.format.bitsPerSample + 1 > 16 then 4 else 2 } }
  else vi

/-- One frame of MakeFullDiff, mergefilters.cpp:806-862. -/
def makeFullFrame (al : Nat) (vi : VInfo) (s1 s2 : Frm) (junk : Junk) : Res Frm := do
  let out := fullVi vi
  let dst ← newVideoFrame al out.format out.width out.height s1.props junk
  dst.build fun p b =>
    match makeFullKernel F vi.format with
    | none => .ok b
    | some (z, px) => plane2 s1 s2 p p z.n1 (s1.stride al p) z.n2 (s1.stride al p) z.n (dst.stride al p) (s2.w p) (s1.h p) px b

/-- `makeFullDiffCreate`, mergefilters.cpp:868-892. -/
def makeFullCreate (al : Nat) (a b : VInfo) : Res Created :=
  if !is8to16orFloat a.format then .err (badFormat "MakeFullDiff")
  else if !isConstantVideoFormat a || !isSameVideoInfo a b then
    .err "MakeFullDiff: both clips must have the same constant format and dimensions"
  else create ⟨fullVi a, fun n => [(0, n), (1, n)], fun n get junk => do
    let s1 ← get 0 n
    let s2 ← get 1 n
    makeFullFrame F al a s1 s2 junk⟩

/-- One frame of MergeFullDiff, mergefilters.cpp:1021-1076. -/
def mergeFullFrame (al : Nat) (vi : VInfo) (s1 s2 : Frm) (junk : Junk) : Res Frm := do
  let dst ← newVideoFrame al vi.format vi.width vi.height s1.props junk
  dst.build fun p b =>
    match mergeFullKernel F vi.format with
    | none => .ok b
    | some (z, px) => plane2 s1 s2 p p z.n1 (s1.stride al p) z.n2 (s2.stride al p) z.n (dst.stride al p) (s1.w p) (s1.h p) px b

/-- `mergeFullDiffIsCompatibleVideoInfo`, mergefilters.cpp:1082-1084. -/
def fullCompatible (a b : VInfo) : Bool :=
  decide (a.height = b.height ∧ a.width = b.width ∧ a.format.colorFamily = b.format.colorFamily ∧
    a.format.sampleType = b.format.sampleType ∧
    a.format.bitsPerSample = b.format.bitsPerSample - (if a.format.sampleType = stInteger then 1 else 0) ∧
    a.format.subSamplingW = b.format.subSamplingW ∧ a.format.subSamplingH = b.format.subSamplingH)

/-- `mergeFullDiffCreate`, mergefilters.cpp:1086-1104. -/
def mergeFullCreate (al : Nat) (a b : VInfo) : Res Created :=
  if !is8to16orFloat a.format then .err (badFormat "MergeFullDiff")
  else if !isConstantVideoFormat a || !fullCompatible a b then
    .err "MergeFullDiff: both clips must have the same (bitdepth+1 for second clip) constant format and dimensions"
  else create ⟨a, fun n => [(0, n), (1, n)], fun n get junk => do
    let s1 ← get 0 n
    let s2 ← get 1 n
    mergeFullFrame F al a s1 s2 junk⟩

end VS.Merge
