import Verif.Pix.Model
import Verif.Gain.Model
import Verif.Half.Model

/-!
# BlankClip and AssumeFPS

Model of src/core/simplefilters.cpp:44-95 (conversion of colors) and 1108-1372.

Simplifications: those of `Verif/Pix`; the frame that `keep` shares is a value. Numbers of type `double` are those of
`Verif/Gain`; the conversion from `double` to `float` is a parameter.
-/

namespace VS.Blank
open VS VS.Format VS.Map VS.Map.Spec VS.Pix VS.Gain

/-! ## Colors -/

/-- `(float)v`: the bits of the result. -/
abbrev ToFloat := Dbl → Nat

/-- `doubleToUInt32S`, simplefilters.cpp:44-50, for a finite number. The conversion to `uint32_t` cuts off the fraction and is
undefined if the result does not fit. -/
def doubleToUInt32S (F : DFloats) (q : Rat) : Res Nat :=
  if q < 0 then .ok 0
  else if q > 4294967295 then .ok 4294967295
  else
    let i := (F.rnd (q + 1 / 2)).floor
    if 0 ≤ i ∧ i < 4294967296 then .ok i.toNat else .ub

/-- `doubleToIntPixelValue`, simplefilters.cpp:52-67; `none` is `*err = 1`. -/
def doubleToIntPixelValue (F : DFloats) (v : Dbl) (bits : Nat) : Res (Option Nat) :=
  match v with
  | .fin q =>
    if q < 0 then .ok none
    else do
      let i ← doubleToUInt32S F q
      if i ≥ 2 ^ bits then .ok none else .ok (some i)
  | _ => .ok none

/-- `isfinite(f)` of a `float`. -/
def isFinite32 (x : Nat) : Bool := decide (x / 2 ^ 23 % 256 ≠ 255)

/-- `doubleToFloatPixelValue`, simplefilters.cpp:69-79. -/
def doubleToFloatPixelValue (C : ToFloat) (v : Dbl) : Option Nat :=
  if isFinite32 (C v) then some (C v) else none

/-- `doubleToHalfPixelValue`, simplefilters.cpp:81-97. -/
def doubleToHalfPixelValue (C : ToFloat) (v : Dbl) : Option Nat :=
  if isFinite32 (C v) then
    if Half.isInfHalf (Half.floatToHalf (C v)) then none else some (Half.floatToHalf (C v))
  else none

/-- The choice of the conversion, simplefilters.cpp:1263-1270 (and 417-424 for AddBorders). -/
def pixelValue (F : DFloats) (C : ToFloat) (f : VFmt) (v : Dbl) : Res (Option Nat) :=
  if f.sampleType = stInteger then doubleToIntPixelValue F v f.bitsPerSample.toNat
  else if f.bitsPerSample = 16 then .ok (doubleToHalfPixelValue C v)
  else .ok (doubleToFloatPixelValue C v)

/-- The loop over the colors, simplefilters.cpp:1261-1273. -/
def colorLoop (F : DFloats) (C : ToFloat) (f : VFmt) : List Dbl → Res (List Nat)
  | [] => .ok []
  | v :: t => do
    match ← pixelValue F C f v with
    | none => .err "BlankClip: color value out of range"
    | some c => do
      let l ← colorLoop F C f t
      .ok (c :: l)

/-- The argument `color`, simplefilters.cpp:1255-1276. -/
def blankColor (F : DFloats) (C : ToFloat) (f : VFmt) (color : List Dbl) : Res (Nat → Nat) :=
  if (color.length : Int) = f.numPlanes then do
    let l ← colorLoop F C f color
    .ok (fun p => l.getD p 0)
  else if color.length > 0 then .err "BlankClip: invalid number of color values specified"
  else .ok (setBlack f)

/-! ## BlankClip -/

/-- The arguments; `none` is an argument that is not given. -/
structure Args where
  clip : Option VInfo := none
  width : Option Int := none
  height : Option Int := none
  format : Option Int := none
  length : Option Int := none
  fpsnum : Option Int := none
  fpsden : Option Int := none
  color : List Dbl := []
  keep : Option Int := none
  varsize : Option Int := none
  varformat : Option Int := none

/-- An argument, the value of the clip, or the default value, simplefilters.cpp:1181-1214. -/
def pick (arg : Option Int) (clip : Option Int) (default : Int) : Int :=
  match arg with
  | some i => i
  | none => match clip with
    | some i => i
    | none => default

/-- The frame rate, simplefilters.cpp:1199-1224. -/
def blankFps (num den : Int) : Res (Int × Int) :=
  if den < 0 ∨ num < 0 then .err "BlankClip: invalid framerate specified"
  else if den = 0 ∨ num = 0 then reduceRational 0 0
  else reduceRational num den

/-- The format, simplefilters.cpp:1226-1236. The `int` becomes an `uint32_t`. -/
def blankFormat (r : Reg) (a : Args) : Res VFmt :=
  let f := match a.format with
    | some i => (getVideoFormatByID r (int64ToIntS i % 4294967296).toNat).2
    | none => match a.clip with
      | some vi => vi.format
      | none => (queryVideoFormat cfRGB stInteger 8 0 0).2
  if f.colorFamily = cfUndefined then .err "BlankClip: invalid format" else .ok f

/-- The number of frames, simplefilters.cpp:1238-1249. -/
def blankLength (a : Args) (num den : Int) : Res Int :=
  match a.length with
  | some i => .ok (int64ToIntS i)
  | none => match a.clip with
    | some vi => .ok vi.numFrames
    | none =>
      if num > 0 ∧ den > 0 then do
        let x ← i64 (num * 10)
        .ok (int64ToIntS (x.tdiv den))
      else .ok 300

/-- `BlankClipData`, simplefilters.cpp:1111-1116, without the frame. -/
structure Data where
  vi : VInfo
  color : Nat → Nat
  keep : Bool

/-- One plane, simplefilters.cpp:1127-1138: the whole memory of the plane. -/
def blankPlane (al : Nat) (d : Data) (dst : Frm) (p : Nat) (b : Buf) : Res Buf :=
  memset b 0 (bps d.vi.format) (d.color p % 256 ^ bps d.vi.format) (dst.stride al p * dst.h p / bps d.vi.format)

/-- The properties, simplefilters.cpp:1141-1145. -/
def blankProps (vi : VInfo) : Dict :=
  if vi.fpsNum > 0 then setInt (setInt Dict.empty "_DurationNum" vi.fpsDen) "_DurationDen" vi.fpsNum else Dict.empty

/-- A new frame, simplefilters.cpp:1124-1146. -/
def blankNew (al : Nat) (d : Data) (junk : Junk) : Res Frm := do
  let dst ← newVideoFrame al d.vi.format d.vi.width d.vi.height Dict.empty junk
  let dst ← dst.build (blankPlane al d dst)
  .ok { dst with props := blankProps d.vi }

/-- `blankClipGetframe`, simplefilters.cpp:1118-1158: the result and the kept frame afterwards. -/
def blankGet (al : Nat) (d : Data) (kept : Option Frm) (junk : Junk) : Res (Frm × Option Frm) :=
  match kept with
  | some f => if d.keep then .ok (f, some f) else .ub
  | none => do
    let f ← blankNew al d junk
    .ok (f, if d.keep then some f else none)

/-- The filter while `kept` is the kept frame. -/
def blankFilter (al : Nat) (delivered : VInfo) (d : Data) (kept : Option Frm) : PFilter :=
  ⟨delivered, fun _ => [], fun _ _ junk => do
    let r ← blankGet al d kept junk
    .ok r.1⟩

/-- `vi` of the filter: an argument that is not zero hides the size or the format, simplefilters.cpp:1280-1292. -/
def deliveredInfo (vi : VInfo) (varsize varformat : Option Int) : VInfo :=
  let vi := if varsize.getD 0 ≠ 0 then { vi with width := 0, height := 0 } else vi
  if varformat.getD 0 ≠ 0 then { vi with format := VFmt.zero } else vi

/-- What `blankClipCreate` makes. -/
structure BlankFilter where
  delivered : VInfo
  data : Data

/-- `createVideoFilter` for a filter without dependencies, src/core/vscore.cpp:713-768. -/
def blankMake (b : BlankFilter) : Res BlankFilter := do
  let ok ← isValidVideoInfo b.delivered
  if ok then .ok b else .err "The VSVideoInfo structure is invalid."

/-- The end of `blankClipCreate`, simplefilters.cpp:1238-1297, with the size, frame rate and format found. -/
def blankFinish (F : DFloats) (C : ToFloat) (a : Args) (width height num den : Int) (f : VFmt) : Res BlankFilter := do
  let n ← blankLength a num den
  if width ≤ 0 ∨ width % 2 ^ f.subSamplingW.toNat ≠ 0 then .err "BlankClip: invalid width"
  else if height ≤ 0 ∨ height % 2 ^ f.subSamplingH.toNat ≠ 0 then .err "BlankClip: invalid height"
  else if n ≤ 0 then .err "BlankClip: invalid length"
  else do
    let c ← blankColor F C f a.color
    let vi : VInfo := ⟨f, num, den, width, height, n⟩
    blankMake ⟨deliveredInfo vi a.varsize a.varformat, ⟨vi, c, a.keep.getD 0 != 0⟩⟩

/-- `blankClipCreate`, simplefilters.cpp:1166-1299. -/
def blankClipCreate (F : DFloats) (C : ToFloat) (r : Reg) (a : Args) : Res BlankFilter := do
  let width := pick (a.width.map int64ToIntS) (a.clip.map (·.width)) 640
  let height := pick (a.height.map int64ToIntS) (a.clip.map (·.height)) 480
  let fps ← blankFps (pick a.fpsnum (a.clip.map (·.fpsNum)) 24) (pick a.fpsden (a.clip.map (·.fpsDen)) 1)
  let f ← blankFormat r a
  blankFinish F C a width height fps.1 fps.2 f

/-- A sequence of requests: `fmUnordered` if the frame is kept, so that the calls do not overlap, simplefilters.cpp:1296. -/
def requests (al : Nat) (b : BlankFilter) : Option Frm → List (Nat × Junk) → Res (List Frm)
  | _, [] => .ok []
  | kept, (n, junk) :: t => do
    let f ← (blankFilter al b.delivered b.data kept).frame [] n junk
    let r ← blankGet al b.data kept junk
    let l ← requests al b r.2 t
    .ok (f :: l)

/-! ## AssumeFPS -/

/-- `assumeFPSGetframe`, simplefilters.cpp:1312-1328. -/
def assumeFrame (num den : Int) (src : Frm) : Frm :=
  { src with props := setInt (setInt src.props "_DurationNum" den) "_DurationDen" num }

/-- The filter of AssumeFPS. -/
def assumeFilter (vi : VInfo) : PFilter :=
  ⟨vi, fun n => [(0, n)], fun n get _ => do
    let src ← get 0 n
    .ok (assumeFrame vi.fpsNum vi.fpsDen src)⟩

/-- `assumeFPSCreate`, simplefilters.cpp:1330-1372: the info of the clip, the arguments and the info of `src`. -/
def assumeFPSCreate (vi : VInfo) (fpsnum fpsden : Option Int) (src : Option VInfo) : Res Created :=
  let num := match src with | some s => s.fpsNum | none => fpsnum.getD 0
  let den := match src with | some s => s.fpsDen | none => fpsden.getD 1
  if (fpsnum.isSome ∧ src.isSome) ∨ (fpsnum.isNone ∧ src.isNone) then
    .err "AssumeFPS: need to specify source clip or fps"
  else if den < 1 ∨ num < 1 then .err "AssumeFPS: invalid framerate specified"
  else do
    let fps ← reduceRational num den
    create (assumeFilter { vi with fpsNum := fps.1, fpsDen := fps.2 })

end VS.Blank
