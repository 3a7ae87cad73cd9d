import Verif.Pix.Mem
import Verif.Frame.Model
import Verif.Format.Model
import Verif.Map.Spec

/-!
# Filters that move pixels around

Model of Crop, AddBorders, ShufflePlanes, SplitPlanes, SeparateFields, DoubleWeave, FlipVertical, FlipHorizontal, Turn180,
StackVertical, StackHorizontal, Transpose, Turn90 and Turn270, src/core/simplefilters.cpp.

Simplifications: frames are values (their sharing is in `Verif/Frame`), frame properties are plain dictionaries (their
implementation is in `Verif/Map`); arguments are given as they come out of the argument map; a frame has only the planes
of its format; the products of strides and heights fit into `ptrdiff_t`; the color values of AddBorders are given after
their conversion from `double`.
-/

namespace VS.Pix
open VS VS.Format VS.Map VS.Map.Spec

/-! ## Frames -/

/-- A video frame: `VSFrame`, src/core/vscore.h:407-420. -/
structure Frm where
  fmt : VFmt
  width : Nat
  height : Nat
  planes : List Buf
  props : Dict

/-- `plane ? fi->subSamplingW : 0`. -/
def ssw (f : VFmt) (p : Nat) : Nat := if p = 0 then 0 else f.subSamplingW.toNat

/-- `plane ? fi->subSamplingH : 0`. -/
def ssh (f : VFmt) (p : Nat) : Nat := if p = 0 then 0 else f.subSamplingH.toNat

/-- Bytes of a sample. -/
def bps (f : VFmt) : Nat := f.bytesPerSample.toNat

/-- `getFrameWidth`, src/core/vscore.h:479-482. -/
def Frm.w (f : Frm) (p : Nat) : Nat := f.width / 2 ^ ssw f.fmt p

/-- `getFrameHeight`, src/core/vscore.h:483-486. -/
def Frm.h (f : Frm) (p : Nat) : Nat := f.height / 2 ^ ssh f.fmt p

/-- `getStride`, src/core/vscore.cpp:188-197; `al` is the alignment. -/
def Frm.stride (al : Nat) (f : Frm) (p : Nat) : Nat := Frame.strideOf al (f.w p) (bps f.fmt)

/-- `getReadPtr`; the pointer is null if there is no such plane. -/
def Frm.plane (f : Frm) (p : Nat) : Res Buf :=
  match f.planes[p]? with
  | some b => .ok b
  | none => .ub

/-- What new memory contains. -/
abbrev Junk := Nat → Nat → Nat

/-- `newVideoFrame`, src/core/vscore.cpp:175-208. -/
def newVideoFrame (al : Nat) (fmt : VFmt) (width height : Int) (props : Dict) (junk : Junk) : Res Frm :=
  if width ≤ 0 ∨ height ≤ 0 then .fatal "Error in frame creation: dimensions are negative"
  else
    let f : Frm := ⟨fmt, width.toNat, height.toNat, [], props⟩
    .ok { f with planes := (List.range fmt.numPlanes.toNat).map (fun p => ⟨f.stride al p * f.h p, junk p⟩) }

/-- `for (int plane = 0; plane < fi->numPlanes; plane++)` over the planes of the new frame. -/
def mapPlanes (f : Nat → Buf → Res Buf) : Nat → List Buf → Res (List Buf)
  | _, [] => .ok []
  | i, b :: t => do
    let b ← f i b
    let t ← mapPlanes f (i + 1) t
    .ok (b :: t)

/-- Fill the planes of a new frame. -/
def Frm.build (dst : Frm) (f : Nat → Buf → Res Buf) : Res Frm := do
  let l ← mapPlanes f 0 dst.planes
  .ok { dst with planes := l }

/-- A product of type `int`. -/
def mul32 (a b : Nat) : Res Nat := do
  let x ← i32 (a * b : Nat)
  .ok x.toNat

/-! ## Properties of frames -/

/-- `mapGetInt(props, key, 0, &err)`, without the alias `_ColorRange`; `none` is an error. -/
def propInt (d : Dict) (k : Key) : Option Int :=
  match d.get k with
  | some (.int, .int i :: _) => some i
  | _ => none

/-- `mapSetInt(props, key, i, maReplace)`. -/
def setInt (d : Dict) (k : Key) (i : Int) : Dict := d.put k (some (.int, [.int i]))

/-- The other field order if the picture moves by an odd number of lines, simplefilters.cpp:173-179, 370-376. -/
def swapFields (odd : Bool) (d : Dict) : Dict :=
  if odd then
    if (propInt d "_FieldBased").getD 0 = 1 ∨ (propInt d "_FieldBased").getD 0 = 2 then
      setInt d "_FieldBased" (if (propInt d "_FieldBased").getD 0 = 1 then 2 else 1)
    else d
  else d

/-! ## Nodes -/

/-- A node and the frames it delivers. -/
structure PClip where
  vi : VInfo
  frames : List Frm

/-- Clamping of frame numbers, src/core/vsapi.cpp:150-152, 159-161. -/
def clampNum (numFrames : Int) (n : Nat) : Nat := if (n : Int) ≥ numFrames then (numFrames - 1).toNat else n

/-- A filter: which frames `arInitial` requests and what `arAllFramesReady` does with `getFrameFilter`. -/
structure PFilter where
  vi : VInfo
  reqs : Nat → List (Nat × Nat)
  ready : Nat → (Nat → Nat → Res Frm) → Junk → Res Frm

/-- `getFrameFilter`, src/core/vsapi.cpp:156-171: only requested frames are there, anything else is a null pointer, which
all callers use. -/
def getFrameFilter (clips : List PClip) (reqs : List (Nat × Nat)) (i n : Nat) : Res Frm :=
  match clips[i]? with
  | none => .ub
  | some c =>
    if reqs.any (fun r => r.1 == i && clampNum c.vi.numFrames r.2 == clampNum c.vi.numFrames n) then
      match c.frames[clampNum c.vi.numFrames n]? with
      | some f => .ok f
      | none => .ub
    else .ub

/-- One frame of a filter, with the check of the result, src/core/vscore.cpp:1056-1088. -/
def PFilter.frame (f : PFilter) (clips : List PClip) (n : Nat) (junk : Junk) : Res Frm := do
  let r ← f.ready n (getFrameFilter clips (f.reqs n)) junk
  if f.vi.format.colorFamily ≠ cfUndefined ∧ ¬ (f.vi.format.colorFamily = r.fmt.colorFamily ∧
      f.vi.format.sampleType = r.fmt.sampleType ∧ f.vi.format.bitsPerSample = r.fmt.bitsPerSample ∧
      f.vi.format.subSamplingW = r.fmt.subSamplingW ∧ f.vi.format.subSamplingH = r.fmt.subSamplingH) then
    .fatal "returned a frame that's not of the declared format"
  else if (f.vi.width ≠ 0 ∨ f.vi.height ≠ 0) ∧ (f.vi.width ≠ r.width ∨ f.vi.height ≠ r.height) then
    .fatal "declared a size but it returned a frame with another size"
  else .ok r

/-- What ends up in the output map: an input node or a new filter. -/
inductive Created where
  | pass (i : Nat)
  | filter (f : PFilter)

/-- `createVideoFilter`, src/core/vscore.cpp:713-768. -/
def create (f : PFilter) : Res Created := do
  let b ← isValidVideoInfo f.vi
  if b then .ok (.filter f) else .err "The VSVideoInfo structure is invalid."

/-- Frame `n` of the result. -/
def Created.frame (c : Created) (clips : List PClip) (n : Nat) (junk : Junk) : Res Frm :=
  match c with
  | .pass i =>
    match clips[i]? with
    | none => .ub
    | some c => match c.frames[clampNum c.vi.numFrames n]? with
      | some f => .ok f
      | none => .ub
  | .filter f => f.frame clips n junk

/-- `isConstantVideoFormat`, include/VSHelper4.h:88-90. -/
def isConstantVideoFormat (vi : VInfo) : Bool :=
  decide (vi.height > 0 ∧ vi.width > 0 ∧ vi.format.colorFamily ≠ cfUndefined)

/-- `isSameVideoFormat`, include/VSHelper4.h:93-95. -/
def isSameVideoFormat (a b : VFmt) : Bool :=
  decide (a.colorFamily = b.colorFamily ∧ a.sampleType = b.sampleType ∧ a.bitsPerSample = b.bitsPerSample ∧
    a.subSamplingW = b.subSamplingW ∧ a.subSamplingH = b.subSamplingH)

/-- `planeWidth`, src/core/filtershared.h:35-37. -/
def planeWidth (vi : VInfo) (p : Nat) : Int := vi.width / 2 ^ ssw vi.format p

/-- `planeHeight`, src/core/filtershared.h:39-41. -/
def planeHeight (vi : VInfo) (p : Nat) : Int := vi.height / 2 ^ ssh vi.format p

/-! ## Crop -/

/-- The last of the messages whose condition holds: each `snprintf` overwrites the message. -/
def lastMsg : List (Bool × String) → Option String
  | [] => none
  | (b, m) :: t => match lastMsg t with
    | some x => some x
    | none => if b then some m else none

/-- Does the area extend beyond the frame? simplefilters.cpp:121-123. The sums are of type `int`. -/
def beyond (x y width height srcWidth srcHeight : Int) : Res Bool :=
  if srcHeight > 0 ∧ srcWidth > 0 then do
    let a ← i32 (height + y)
    if srcHeight < a then .ok true
    else do
      let b ← i32 (width + x)
      .ok (decide (srcWidth < b))
  else .ok false

/-- `cropVerify`, simplefilters.cpp:112-140. -/
def cropVerify (x y width height srcWidth srcHeight : Int) (fi : VFmt) : Res (Option String) := do
  let b ← beyond x y width height srcWidth srcHeight
  .ok (lastMsg [
    (decide (y < 0 ∨ x < 0), "Crop: negative corner coordinates not allowed"),
    (decide (width ≤ 0 ∨ height ≤ 0), "Crop: negative/zero cropping dimensions not allowed"),
    (b, "Crop: cropped area extends beyond frame dimensions"),
    (decide (width % 2 ^ fi.subSamplingW.toNat ≠ 0), "Crop: cropped area needs to have mod width"),
    (decide (height % 2 ^ fi.subSamplingH.toNat ≠ 0), "Crop: cropped area needs to have mod height"),
    (decide (x % 2 ^ fi.subSamplingW.toNat ≠ 0), "Crop: cropped area needs to have mod width offset"),
    (decide (y % 2 ^ fi.subSamplingH.toNat ≠ 0), "Crop: cropped area needs to have mod height offset")])

/-- One plane, simplefilters.cpp:161-169. -/
def cropPlane (al x y width : Nat) (src dst : Frm) (p : Nat) (b : Buf) : Res Buf := do
  let s ← src.plane p
  let off ← mul32 (x / 2 ^ ssw src.fmt p) (bps src.fmt)
  let row ← mul32 (width / 2 ^ ssw src.fmt p) (bps src.fmt)
  bitblt b 0 (dst.stride al p) s ((src.stride al p * (y / 2 ^ ssh src.fmt p) : Nat) + off) (src.stride al p) row (dst.h p)

/-- `cropGetframe`, simplefilters.cpp:142-186. -/
def cropFrame (al : Nat) (x y width height : Int) (src : Frm) (junk : Junk) : Res Frm := do
  match ← cropVerify x y width height src.width src.height src.fmt with
  | some m => .err m
  | none => do
    let dst ← newVideoFrame al src.fmt width height src.props junk
    let dst ← dst.build (cropPlane al x.toNat y.toNat width.toNat src dst)
    .ok { dst with props := swapFields (decide (y % 2 = 1)) dst.props }

/-- The filter of `cropAbsCreate` and `cropRelCreate`, simplefilters.cpp:206-214, 240-248. -/
def cropFilter (al : Nat) (vi : VInfo) (x y width height : Int) : PFilter :=
  ⟨{ vi with width := width, height := height }, fun n => [(0, n)],
    fun n get junk => do cropFrame al x y width height (← get 0 n) junk⟩

/-- An optional argument with a second name, simplefilters.cpp:193-198, after `mapGetIntSaturated`. -/
def argOr (a b : Option Int) : Int := int64ToIntS (match a with | some i => i | none => b.getD 0)

/-- `cropAbsCreate`, simplefilters.cpp:188-215. -/
def cropAbsCreate (al : Nat) (vi : VInfo) (left x top y : Option Int) (width height : Int) : Res Created := do
  match ← cropVerify (argOr left x) (argOr top y) (int64ToIntS width) (int64ToIntS height) vi.width vi.height vi.format with
  | some m => .err m
  | none => create (cropFilter al vi (argOr left x) (argOr top y) (int64ToIntS width) (int64ToIntS height))

/-- The width or height of the area, simplefilters.cpp:231-232: two subtractions of type `int`. -/
def remaining (size a b : Int) : Res Int := do
  let x ← i32 (size - a)
  i32 (x - b)

/-- `cropRelCreate`, simplefilters.cpp:217-249. The arguments are those after `mapGetIntSaturated`, 0 if not given. -/
def cropRelCreate (al : Nat) (vi : VInfo) (left right top bottom : Int) : Res Created :=
  if !isConstantVideoFormat vi then .err "Crop: constant format and dimensions needed"
  else do
    let height ← remaining vi.height top bottom
    let width ← remaining vi.width left right
    if left = 0 ∧ top = 0 ∧ width = vi.width ∧ height = vi.height then .ok (.pass 0)
    else match ← cropVerify left top width height vi.width vi.height vi.format with
      | some m => .err m
      | none => create (cropFilter al vi left top width height)

/-! ## AddBorders -/

/-- `addBordersVerify`, simplefilters.cpp:264-282. -/
def addBordersVerify (left right top bottom : Int) (fi : VFmt) : Option String :=
  lastMsg [
    (decide (left % 2 ^ fi.subSamplingW.toNat ≠ 0), "AddBorders: added area needs to have mod width"),
    (decide (right % 2 ^ fi.subSamplingW.toNat ≠ 0), "AddBorders: added area needs to have mod width"),
    (decide (top % 2 ^ fi.subSamplingH.toNat ≠ 0), "AddBorders: added area needs to have mod height"),
    (decide (bottom % 2 ^ fi.subSamplingH.toNat ≠ 0), "AddBorders: added area needs to have mod height")]

/-- The body of the loop over the rows, simplefilters.cpp:332-352; `d` and `s` are the current rows. -/
def borderRow (bytes color padl padr row : Nat) (s : Buf) (d so : Nat) (b : Buf) : Res Buf := do
  let b ← memset b d bytes color (padl / bytes)
  let b ← memcpy b (d + padl : Nat) s so row
  memset b (d + padl + row : Nat) bytes color (padr / bytes)

/-- One plane, simplefilters.cpp:306-366. -/
def borderPlane (al left right top bottom color : Nat) (src dst : Frm) (p : Nat) (b : Buf) : Res Buf := do
  let s ← src.plane p
  let bytes := bps src.fmt
  let row ← mul32 (src.w p) bytes
  let padt := top / 2 ^ ssh src.fmt p
  let padb := bottom / 2 ^ ssh src.fmt p
  let padl ← mul32 (left / 2 ^ ssw src.fmt p) bytes
  let padr ← mul32 (right / 2 ^ ssw src.fmt p) bytes
  let st := dst.stride al p
  let b ← memset b 0 bytes color (padt * st / bytes)
  let b ← forN (fun y => borderRow bytes color padl padr row s (padt * st + y * st) (y * src.stride al p)) (src.h p) b
  memset b (padt * st + src.h p * st : Nat) bytes color (padb * st / bytes)

/-- `addBordersGetframe`, simplefilters.cpp:284-382. -/
def addBordersFrame (al : Nat) (left right top bottom : Int) (color : Nat → Nat) (src : Frm) (junk : Junk) : Res Frm :=
  match addBordersVerify left right top bottom src.fmt with
  | some m => .err m
  | none => do
    let w ← i32 (src.width + left)
    let w ← i32 (w + right)
    let h ← i32 (src.height + top)
    let h ← i32 (h + bottom)
    let dst ← newVideoFrame al src.fmt w h src.props junk
    let dst ← dst.build (fun p => borderPlane al left.toNat right.toNat top.toNat bottom.toNat (color p) src dst p)
    .ok { dst with props := swapFields (decide (top % 2 = 1)) dst.props }

/-- `setBlack`, src/core/filtershared.h:44-49. -/
def setBlack (f : VFmt) (p : Nat) : Nat :=
  if f.sampleType = stInteger ∧ f.colorFamily = cfYUV ∧ (p = 1 ∨ p = 2) then 2 ^ (f.bitsPerSample - 1).toNat else 0

/-- The color argument, simplefilters.cpp:411-433; `none` in the list is a value that is out of range. -/
def borderColor (f : VFmt) (color : List (Option Nat)) : Res (Nat → Nat) :=
  if (color.length : Int) = f.numPlanes then
    if color.any Option.isNone then .err "AddBorders: color value out of range"
    else .ok (fun p => ((color[p]?).bind id).getD 0)
  else if color.length > 0 then .err "AddBorders: invalid number of color values specified"
  else .ok (setBlack f)

/-- The new width or height, simplefilters.cpp:435-436. -/
def grow (size a b : Int) : Res Int :=
  if size ≠ 0 then do
    let s ← i32 (a + b)
    i32 (size + s)
  else .ok size

/-- `addBordersCreate`, simplefilters.cpp:384-440. The arguments are those after `mapGetIntSaturated`, 0 if not given. -/
def addBordersCreate (al : Nat) (vi : VInfo) (left right top bottom : Int) (color : List (Option Nat)) : Res Created :=
  if left = 0 ∧ right = 0 ∧ top = 0 ∧ bottom = 0 then .ok (.pass 0)
  else if left < 0 ∨ right < 0 ∨ top < 0 ∨ bottom < 0 then .err "AddBorders: border size to add must not be negative"
  else if vi.format.colorFamily = cfUndefined then .err "AddBorders: input needs to be constant format"
  else match addBordersVerify left right top bottom vi.format with
    | some m => .err m
    | none => do
      let c ← borderColor vi.format color
      let h ← grow vi.height top bottom
      let w ← grow vi.width left right
      create ⟨{ vi with width := w, height := h }, fun n => [(0, n)],
        fun n get junk => do addBordersFrame al left right top bottom c (← get 0 n) junk⟩

/-! ## ShufflePlanes -/

/-- `findSubSampling`, simplefilters.cpp:506-511, from turn `i` on with `n` turns left. -/
def findSubSampling (s1 s2 : Int) : Nat → Nat → Option Nat
  | _, 0 => none
  | i, n + 1 => if s1 - s2 * 2 ^ i = 0 then some i else findSubSampling s1 s2 (i + 1) n

/-- One plane of `newVideoFrame2`, src/core/vscore.cpp:234-241. -/
def takePlane (dst : Frm) (i : Nat) (src : Frm) (p : Int) : Res Buf :=
  if p < 0 ∨ p ≥ src.fmt.numPlanes then .fatal "Error in frame creation: plane does not exist in the source frame"
  else if src.h p.toNat ≠ dst.h i ∨ src.w p.toNat ≠ dst.w i then
    .fatal "Error in frame creation: dimensions of plane do not match."
  else src.plane p.toNat

/-- The loop over the planes of `newVideoFrame2`, src/core/vscore.cpp:234-249, from plane `i` on. -/
def takePlanes (dst : Frm) : Nat → List (Frm × Int) → Res (List Buf)
  | _, [] => .ok []
  | i, (f, p) :: t => do
    let b ← takePlane dst i f p
    let l ← takePlanes dst (i + 1) t
    .ok (b :: l)

/-- `newVideoFrame2` with a source for each plane, src/core/vscore.cpp:210-253. -/
def newVideoFrame2 (fmt : VFmt) (width height : Int) (srcs : List (Frm × Int)) (props : Dict) : Res Frm :=
  if width ≤ 0 ∨ height ≤ 0 then .fatal "Error in frame creation: dimensions are negative"
  else do
    let f : Frm := ⟨fmt, width.toNat, height.toNat, [], props⟩
    let l ← takePlanes f 0 (srcs.take fmt.numPlanes.toNat)
    .ok { f with planes := l }

/-- `colorfamily`: the values of version 3 are accepted, simplefilters.cpp:522-530, src/core/VapourSynth3.h:40-43. -/
def family (cf : Int) : Int :=
  if cf = 1000000 then cfGray else if cf = 3000000 ∨ cf = 4000000 then cfYUV else if cf = 2000000 then cfRGB else cf

/-- The format and size of the result for three planes, simplefilters.cpp:573-616. `vis` are the infos of the nodes of the
three planes, `ps` the plane numbers. -/
def shuffleInfo (family : Int) (v0 v1 v2 : VInfo) (p0 p1 p2 : Nat) : Res VInfo :=
  if planeWidth v1 p1 ≠ planeWidth v2 p2 ∨ planeHeight v1 p1 ≠ planeHeight v2 p2 then
    .err "ShufflePlanes: plane 1 and 2 do not have the same size"
  else match findSubSampling (planeHeight v0 p0) (planeHeight v1 p1) 0 6, findSubSampling (planeWidth v0 p0) (planeWidth v1 p1) 0 6 with
    | some ssH, some ssW =>
      if v0.format.bitsPerSample ≠ v1.format.bitsPerSample ∨ v0.format.sampleType ≠ v1.format.sampleType ∨
          v0.format.bitsPerSample ≠ v2.format.bitsPerSample ∨ v0.format.sampleType ≠ v2.format.sampleType then
        .err "ShufflePlanes: plane 1 and 2 do not have binary compatible storage"
      else if family = cfRGB ∧ (ssH ≠ 0 ∨ ssW ≠ 0) then .err "ShufflePlanes: subsampled RGB not allowed"
      else .ok { v0 with
        format := (queryVideoFormat family v0.format.sampleType v0.format.bitsPerSample ssW ssH).2
        width := planeWidth v0 p0, height := planeHeight v0 p0
        numFrames := max (max v0.numFrames v1.numFrames) v2.numFrames }
    | _, _ => .err "ShufflePlanes: plane 1 and 2 are not subsampled multiples of first plane"

/-- The three planes of the result, simplefilters.cpp:467-480. The nodes are 0 to 2 and `prop` for the properties. -/
def shuffleFilter (vi : VInfo) (n0 n1 n2 prop : Nat) (p0 p1 p2 : Int) : PFilter :=
  ⟨vi, fun n => [(n0, n), (n1, n), (n2, n), (prop, n)], fun n get _ => do
    let f0 ← get n0 n
    let f1 ← get n1 n
    let f2 ← get n2 n
    let f3 ← get prop n
    newVideoFrame2 vi.format vi.width vi.height [(f0, p0), (f1, p1), (f2, p2)] f3.props⟩

/-- The single plane of the result, simplefilters.cpp:481-500. -/
def grayFilter (vi : VInfo) (n0 prop : Nat) (p0 : Int) : PFilter :=
  ⟨vi, fun n => [(n0, n), (prop, n)], fun n get _ => do
    let src ← get n0 n
    if p0 ≥ src.fmt.numPlanes then .err "ShufflePlanes: invalid plane specified"
    else do
      let f3 ← get prop n
      newVideoFrame2 vi.format (src.w p0.toNat) (src.h p0.toNat) [(src, p0)] f3.props⟩

/-- Is the plane number of a node invalid? simplefilters.cpp:566-569. -/
def badPlane (vi : VInfo) (p : Int) : Bool :=
  decide (p < 0 ∨ (vi.format.colorFamily ≠ cfUndefined ∧ p ≥ vi.format.numPlanes))

/-- `shufflePlanesCreate`, simplefilters.cpp:513-627. `clips` are the infos of the one to three nodes given, `planes` the
plane numbers after `mapGetIntSaturated`, `propSrc` says whether `prop_src` is given; it comes after the clips then. -/
def shufflePlanesCreate (clips : List VInfo) (planes : List Int) (colorfamily : Int) (propSrc : Bool) : Res Created :=
  let fam := family (int64ToIntS colorfamily)
  if fam ≠ cfRGB ∧ fam ≠ cfYUV ∧ fam ≠ cfGray then .err "ShufflePlanes: invalid output colorfamily"
  else
    let outplanes := if fam = cfGray then 1 else 3
    if clips.length > outplanes then .err "ShufflePlanes: 1-3 clips need to be specified"
    else if planes.length > outplanes then .err "ShufflePlanes: too many planes specified"
    else if clips.any (fun v => !isConstantVideoFormat v) then
      .err "ShufflePlanes: only clips with constant format and dimensions supported"
    else
      let n1 := if clips.length ≥ 2 then 1 else 0
      let n2 := if clips.length ≥ 3 then 2 else n1
      let prop := if propSrc then clips.length else 0
      let p0 := planes.getD 0 0
      let p1 := planes.getD 1 0
      let p2 := planes.getD 2 0
      match clips[0]?, clips[n1]?, clips[n2]? with
      | some v0, some v1, some v2 =>
        if badPlane v0 p0 || (fam != cfGray && (badPlane v1 p1 || badPlane v2 p2)) then
          .err "ShufflePlanes: invalid plane specified"
        else if fam = cfGray then
          create (grayFilter { v0 with
            format := (queryVideoFormat cfGray v0.format.sampleType v0.format.bitsPerSample 0 0).2
            width := planeWidth v0 p0.toNat, height := planeHeight v0 p0.toNat } 0 prop p0)
        else do
          let vi ← shuffleInfo fam v0 v1 v2 p0.toNat p1.toNat p2.toNat
          create (shuffleFilter vi 0 n1 n2 prop p0 p1 p2)
      | _, _, _ => .ub

/-- The loop of `splitPlanesCreate`, simplefilters.cpp:650-657, from plane `i` on with `n` planes left. An error of
`ShufflePlanes` is not looked at: reading the node from the map ends the process, src/core/vsapi.cpp:359-366. -/
def splitLoop (vi : VInfo) : Nat → Nat → Res (List Created)
  | _, 0 => .ok []
  | i, n + 1 =>
    match shufflePlanesCreate [vi] [(i : Int)] cfGray false with
    | .ok c => do
      let l ← splitLoop vi (i + 1) n
      .ok (c :: l)
    | .err _ => .fatal "Property read unsuccessful on map with error set but no error output"
    | .fatal m => .fatal m
    | .ub => .ub

/-- `splitPlanesCreate`, simplefilters.cpp:632-661. -/
def splitPlanesCreate (vi : VInfo) : Res (List Created) :=
  if vi.format.colorFamily = cfUndefined then .err "SplitPlanes: only constant format clips supported"
  else if vi.format.numPlanes = 1 then .ok [.pass 0]
  else splitLoop vi 0 vi.format.numPlanes.toNat

/-! ## SeparateFields and DoubleWeave -/

/-- The field order used, simplefilters.cpp:684-690; `none` is -1. -/
def fieldOrder (tff : Option Bool) (d : Dict) : Option Bool :=
  if int64ToIntS ((propInt d "_FieldBased").getD 0) = 1 then some false
  else if int64ToIntS ((propInt d "_FieldBased").getD 0) = 2 then some true
  else tff

/-- Half the duration, simplefilters.cpp:716-725. -/
def halveDuration (modify : Bool) (d : Dict) : Res Dict :=
  if modify then
    match propInt d "_DurationNum", propInt d "_DurationDen" with
    | some num, some den => do
      let r ← muldivRational num den 1 2
      .ok (setInt (setInt d "_DurationNum" r.1) "_DurationDen" r.2)
    | _, _ => .ok d
  else .ok d

/-- One plane, simplefilters.cpp:700-711; `top` says which field. -/
def fieldPlane (al : Nat) (top : Bool) (src dst : Frm) (p : Nat) (b : Buf) : Res Buf := do
  let s ← src.plane p
  let row ← mul32 (dst.w p) (bps dst.fmt)
  bitblt b 0 (dst.stride al p) s (if top then 0 else src.stride al p) ((src.stride al p : Int) * 2) row (dst.h p)

/-- `separateFieldsGetframe`, simplefilters.cpp:674-732. -/
def separateFrame (al : Nat) (vi : VInfo) (tff : Option Bool) (modify : Bool) (n : Nat) (src : Frm) (junk : Junk) :
    Res Frm :=
  match fieldOrder tff src.props with
  | none => .err "SeparateFields: no field order provided"
  | some t => do
    let top := (n % 2 == 1) ^^ t
    let dst ← newVideoFrame al vi.format vi.width vi.height src.props junk
    let dst ← dst.build (fieldPlane al top src dst)
    let props ← halveDuration modify ((setInt dst.props "_Field" (if top then 1 else 0)).put "_FieldBased" none)
    .ok { dst with props := props }

/-- The frame rate, simplefilters.cpp:758-759. -/
def fieldRate (modify : Bool) (vi : VInfo) : Res (Int × Int) :=
  if modify then muldivRational vi.fpsNum vi.fpsDen 2 1 else .ok (vi.fpsNum, vi.fpsDen)

/-- The filter made by `separateFieldsCreate`. -/
def fieldFilter (al : Nat) (vi : VInfo) (tff : Option Bool) (modify : Bool) : PFilter :=
  ⟨vi, fun n => [(0, n / 2)], fun n get junk => do separateFrame al vi tff modify n (← get 0 (n / 2)) junk⟩

/-- `separateFieldsCreate`, simplefilters.cpp:734-765. -/
def separateFieldsCreate (al : Nat) (vi : VInfo) (tff modify : Option Bool) : Res Created :=
  if !isConstantVideoFormat vi then .err "SeparateFields: clip must have constant format and dimensions"
  else if vi.height % 2 ^ (vi.format.subSamplingH.toNat + 1) ≠ 0 then
    .err "SeparateFields: clip height must be mod 2 in the smallest subsampled plane"
  else if vi.numFrames > INT_MAX / 2 then .err "SeparateFields: resulting clip is too long"
  else do
    let fps ← fieldRate (modify.getD true) vi
    create (fieldFilter al { vi with numFrames := vi.numFrames * 2, height := vi.height / 2, fpsNum := fps.1, fpsDen := fps.2 }
      tff (modify.getD true))

/-- Is the first of two frames the top field? simplefilters.cpp:795-819; `none`: not known. -/
def firstIsTop (tff : Option Bool) (n : Nat) (d1 d2 : Dict) : Option Bool :=
  let f1 := (propInt d1 "_Field").getD (-1)
  let f2 := (propInt d2 "_Field").getD (-1)
  if f1 = 0 ∧ f2 = 1 then some false
  else if f1 = 1 ∧ f2 = 0 then some true
  else tff.map (fun t => (n % 2 == 1) ^^ t)

/-- One plane, simplefilters.cpp:827-843. -/
def weavePlane (al : Nat) (top bottom dst : Frm) (p : Nat) (b : Buf) : Res Buf := do
  let st ← top.plane p
  let sb ← bottom.plane p
  let row ← mul32 (dst.w p) (bps dst.fmt)
  forN (fun y b => do
    let b ← memcpy b (2 * y * dst.stride al p : Nat) st (y * bottom.stride al p : Nat) row
    memcpy b ((2 * y + 1) * dst.stride al p : Nat) sb (y * bottom.stride al p : Nat) row) (top.h p) b

/-- `doubleWeaveGetframe`, simplefilters.cpp:777-851. -/
def weaveFrame (al : Nat) (vi : VInfo) (tff : Option Bool) (n : Nat) (src1 src2 : Frm) (junk : Junk) : Res Frm :=
  match firstIsTop tff n src1.props src2.props with
  | none => .err "DoubleWeave: field order could not be determined from frame properties"
  | some t => do
    let top := if t then src1 else src2
    let bottom := if t then src2 else src1
    let dst ← newVideoFrame al vi.format vi.width vi.height src1.props junk
    let dst ← dst.build (weavePlane al top bottom dst)
    .ok { dst with props := setInt (dst.props.put "_Field" none) "_FieldBased" (if t then 2 else 1) }

/-- The filter made by `doubleWeaveCreate`. -/
def weaveFilter (al : Nat) (vi : VInfo) (tff : Option Bool) : PFilter :=
  ⟨vi, fun n => [(0, n), (0, n + 1)], fun n get junk => do
    let a ← get 0 n
    let b ← get 0 (n + 1)
    weaveFrame al vi tff n a b junk⟩

/-- `doubleWeaveCreate`, simplefilters.cpp:853-870. The height is doubled before it is checked. -/
def doubleWeaveCreate (al : Nat) (vi : VInfo) (tff : Option Bool) : Res Created := do
  let h ← i32 (vi.height * 2)
  if !isConstantVideoFormat { vi with height := h } then .err "DoubleWeave: clip must have constant format and dimensions"
  else create (weaveFilter al { vi with height := h } tff)

/-! ## Flips -/

/-- One plane, simplefilters.cpp:887-895. -/
def flipVPlane (al : Nat) (src dst : Frm) (p : Nat) (b : Buf) : Res Buf := do
  let s ← src.plane p
  let row ← mul32 (dst.w p) (bps src.fmt)
  bitblt b ((dst.stride al p : Int) * ((src.h p : Int) - 1)) (-(dst.stride al p : Int)) s 0 (src.stride al p) row (src.h p)

/-- `flipVerticalGetframe`, simplefilters.cpp:877-902. -/
def flipVFrame (al : Nat) (src : Frm) (junk : Junk) : Res Frm := do
  let dst ← newVideoFrame al src.fmt src.width src.height src.props junk
  dst.build (flipVPlane al src dst)

/-- A filter that makes each frame from the frame with the same number of its only input. -/
def simple (vi : VInfo) (f : Frm → Junk → Res Frm) : PFilter :=
  ⟨vi, fun n => [(0, n)], fun n get junk => do f (← get 0 n) junk⟩

/-- `flipVerticalCreate`, simplefilters.cpp:904-910. -/
def flipVerticalCreate (al : Nat) (vi : VInfo) : Res Created := create (simple vi (flipVFrame al))

/-- One plane, simplefilters.cpp:931-986; `flip` for Turn180. The three loops for the sizes of samples differ in the type
of the samples only. -/
def flipHPlane (al : Nat) (flip : Bool) (src dst : Frm) (p : Nat) (b : Buf) : Res Buf := do
  let s ← src.plane p
  let w := src.w p
  let h := src.h p
  let base : Int := if flip then (dst.stride al p : Int) * ((h : Int) - 1) else 0
  let st : Int := if flip then -(dst.stride al p : Int) else dst.stride al p
  if bps src.fmt = 1 ∨ bps src.fmt = 2 ∨ bps src.fmt = 4 then
    forN (fun y => forN (fun x b =>
      memcpy b (base + y * st + ((w : Int) - 1 - x) * (bps src.fmt : Int)) s (y * src.stride al p + x * bps src.fmt : Nat)
        (bps src.fmt)) w) h b
  else .err "FlipHorizontal: Unsupported sample size"

/-- `flipHorizontalGetframe`, simplefilters.cpp:921-999. -/
def flipHFrame (al : Nat) (flip : Bool) (src : Frm) (junk : Junk) : Res Frm := do
  let dst ← newVideoFrame al src.fmt src.width src.height src.props junk
  dst.build (flipHPlane al flip src dst)

/-- `flipHorizontalCreate`, simplefilters.cpp:1001-1008. -/
def flipHorizontalCreate (al : Nat) (flip : Bool) (vi : VInfo) : Res Created := create (simple vi (flipHFrame al flip))

/-! ## Stack -/

/-- One input of one plane, simplefilters.cpp:1036-1054: the memory and the position of `dstp` afterwards. -/
def stackOne (al : Nat) (vertical : Bool) (dst : Frm) (p : Nat) (src : Frm) (s : Buf × Nat) : Res (Buf × Nat) := do
  let m ← src.plane p
  if vertical then
    let size := dst.stride al p * src.h p
    let b ← memcpy s.1 s.2 m 0 size
    .ok (b, s.2 + size)
  else
    let row ← mul32 (src.w p) (bps dst.fmt)
    let b ← bitblt s.1 s.2 (dst.stride al p) m 0 (src.stride al p) row (src.h p)
    .ok (b, s.2 + row)

/-- The loop over the nodes, simplefilters.cpp:1033-1057. -/
def stackLoop (al : Nat) (vertical : Bool) (dst : Frm) (p : Nat) : List Frm → Buf × Nat → Res (Buf × Nat)
  | [], s => .ok s
  | f :: t, s => do
    let s ← stackOne al vertical dst p f s
    stackLoop al vertical dst p t s

/-- `stackGetframe`, simplefilters.cpp:1020-1062, given the frames of all nodes. -/
def stackFrame (al : Nat) (vertical : Bool) (vi : VInfo) (srcs : List Frm) (junk : Junk) : Res Frm :=
  match srcs with
  | [] => .ub
  | f :: _ => do
    let dst ← newVideoFrame al vi.format vi.width vi.height f.props junk
    dst.build (fun p b => do
      let r ← stackLoop al vertical dst p srcs (b, 0)
      .ok r.1)

/-- The frames of nodes `i`, `i + 1`, …. -/
def getAll (get : Nat → Nat → Res Frm) (n : Nat) : Nat → Nat → Res (List Frm)
  | _, 0 => .ok []
  | i, k + 1 => do
    let f ← get i n
    let l ← getAll get n (i + 1) k
    .ok (f :: l)

/-- The loop over the clips after the first one, simplefilters.cpp:1080-1098. -/
def stackInfo (vertical : Bool) : VInfo → List VInfo → Res VInfo
  | d, [] => .ok d
  | d, vi :: t =>
    let d := { d with numFrames := if d.numFrames < vi.numFrames then vi.numFrames else d.numFrames }
    if (!isConstantVideoFormat vi) || (!isSameVideoFormat vi.format d.format) || (vertical && vi.width != d.width) ||
        (!vertical && vi.height != d.height) then
      .err (if vertical then "StackVertical: clip format and width must match"
        else "StackHorizontal: clip format and height must match")
    else if vertical then do
      let h ← i32 (d.height + vi.height)
      stackInfo vertical { d with height := h } t
    else do
      let w ← i32 (d.width + vi.width)
      stackInfo vertical { d with width := w } t

/-- `stackCreate`, simplefilters.cpp:1064-1106. The argument `clips` is never empty. -/
def stackCreate (al : Nat) (vertical : Bool) (clips : List VInfo) : Res Created :=
  match clips with
  | [] => .ub
  | [_] => .ok (.pass 0)
  | v :: t => do
    let vi ← stackInfo vertical v t
    create ⟨vi, fun n => (List.range clips.length).map (fun i => (i, n)), fun n get junk => do
      let fs ← getAll get n 0 clips.length
      stackFrame al vertical vi fs junk⟩

/-! ## Transpose -/

/-- `int64_t` from its bits. -/
def signed64 (x : Nat) : Int := if x < 2 ^ 63 then x else (x : Int) - 2 ^ 64

/-- `ADD_OFFSET(p, k)` as a distance in bytes, src/core/kernel/transpose.h:41. `k / sizeof(*p)` is an unsigned division,
so that negative distances rely on addresses that wrap around. -/
def addOffset (k : Int) (sz : Nat) : Int := signed64 ((k % 2 ^ 64).toNat / sz * sz % 2 ^ 64)

/-- One sample: `*(ADD_OFFSET(dst, j * dst_stride) + i) = *(ADD_OFFSET(src, i * src_stride) + j)`. -/
def transposeSample (sz : Nat) (s : Buf) (so ss dof ds : Int) (i j : Nat) (b : Buf) : Res Buf :=
  memcpy b (dof + addOffset (j * ds) sz + (i * sz : Nat)) s (so + addOffset (i * ss) sz + (j * sz : Nat)) sz

/-- `transpose_block_*`, src/core/kernel/transpose.cpp:32-45: a block of `bh` rows and `bw` columns. In
src/core/kernel/x86/transpose_sse2.cpp a block is transposed in registers; what is modelled is that it is transposed. -/
def transposeBlock (sz bw bh : Nat) (s : Buf) (so ss dof ds : Int) (i j : Nat) (b : Buf) : Res Buf :=
  forN (fun y => forN (fun x => transposeSample sz s so ss dof ds (i + y) (j + x)) bw) bh b

/-- `transpose_plane_*`, src/core/kernel/transpose.h:52-90: blocks of `bw` × `bh`, `cl` samples in a cache line. -/
def transposePlaneLoop (sz bw bh cl : Nat) (s : Buf) (so ss dof ds : Int) (width height : Nat) (b : Buf) : Res Buf := do
  let wf := width - width % bw
  let hf := height - height % cl
  let hf2 := height - height % bh
  let b ← forFrom (fun i b => do
    let b ← forFrom (fun j => forFrom (fun ii => transposeBlock sz bw bh s so ss dof ds ii j) bh i (cl / bh)) bw 0 (wf / bw) b
    forFrom (fun j => forFrom (fun ii => transposeSample sz s so ss dof ds ii j) 1 i cl) 1 wf (width - wf) b)
    cl 0 (hf / cl) b
  let b ← forFrom (fun i b => do
    let b ← forFrom (fun j => transposeBlock sz bw bh s so ss dof ds i j) bw 0 (wf / bw) b
    forFrom (fun j => forFrom (fun ii => transposeSample sz s so ss dof ds ii j) 1 i bh) 1 wf (width - wf) b)
    bh hf ((hf2 - hf) / bh) b
  forFrom (fun i => forFrom (fun j => transposeSample sz s so ss dof ds i j) 1 0 width) 1 hf2 (height - hf2) b

/-- Width and height of blocks, src/core/kernel/transpose.cpp:22-27. -/
def blkC (_ : Nat) : Nat × Nat := (1, 1)

/-- Width and height of blocks, src/core/kernel/x86/transpose_sse2.cpp:26-31. -/
def blkSse2 (sz : Nat) : Nat × Nat := if sz = 1 then (16, 8) else if sz = 2 then (8, 8) else (4, 4)

/-- `TransposeMode`, simplefilters.cpp:1644-1648. -/
inductive TMode where
  | transpose | turn90 | turn270
  deriving DecidableEq, Repr

/-- One plane, simplefilters.cpp:1693-1711; `blk` gives the size of the blocks for a sample size. -/
def transposePlane (al : Nat) (blk : Nat → Nat × Nat) (mode : TMode) (src dst : Frm) (p : Nat) (b : Buf) : Res Buf := do
  let s ← src.plane p
  let w := src.w p
  let h := src.h p
  let ss : Int := src.stride al p
  let ds : Int := dst.stride al p
  let sz := bps dst.fmt
  transposePlaneLoop sz (blk sz).1 (blk sz).2 (64 / sz) s (if mode = .turn90 then ss * ((h : Int) - 1) else 0)
    (if mode = .turn90 then -ss else ss) (if mode = .turn270 then ds * ((w : Int) - 1) else 0)
    (if mode = .turn270 then -ds else ds) w h b

/-- `transposeGetFrame`, simplefilters.cpp:1658-1718. -/
def transposeFrame (al : Nat) (blk : Nat → Nat × Nat) (vi : VInfo) (mode : TMode) (src : Frm) (junk : Junk) : Res Frm := do
  let dst ← newVideoFrame al vi.format vi.width vi.height src.props junk
  dst.build (transposePlane al blk mode src dst)

/-- `transposeCreate`, simplefilters.cpp:1720-1742. -/
def transposeCreate (al : Nat) (blk : Nat → Nat × Nat) (mode : TMode) (vi : VInfo) : Res Created :=
  let vi := { vi with width := vi.height, height := vi.width }
  if !isConstantVideoFormat vi then .err "clip must have constant format and dimensions"
  else
    let f := vi.format
    let vi := { vi with format := (queryVideoFormat f.colorFamily f.sampleType f.bitsPerSample f.subSamplingH f.subSamplingW).2 }
    create (simple vi (transposeFrame al blk vi mode))

end VS.Pix
