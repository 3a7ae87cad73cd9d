import Verif.Blank.Model
import Verif.Pix.Spec
import Verif.Half.Spec

/-!
# What BlankClip and AssumeFPS promise
-/

namespace VS.Blank.Spec
open VS VS.Format VS.Map VS.Map.Spec VS.Pix VS.Pix.Spec VS.Gain VS.Half.Spec

/-- `c` is the sample for the color value `v`: for integers the number next to it (up to the accuracy of `double`) in the range
of the format, for single precision the value as `float`, for half precision the number next to that. -/
def SampleFor (C : ToFloat) (f : VFmt) (v : Dbl) (c : Nat) : Prop :=
  if f.sampleType = stInteger then
    ∃ q, v = .fin q ∧ 0 ≤ q ∧ c < 2 ^ f.bitsPerSample.toNat ∧
      (q ≤ 4294967295 → |(c : Rat) - q| ≤ 1 / 2 + 1 / 2 ^ 20)
  else if f.bitsPerSample = 16 then single.Finite (C v) ∧ half.Bits c ∧ half.Finite c ∧ Nearest (single.value (C v)) c
  else c = C v ∧ single.Finite c

/-- A color value that has a sample. -/
def HasSample (C : ToFloat) (f : VFmt) (v : Dbl) : Prop :=
  if f.sampleType = stInteger then ∃ q, v = .fin q ∧ 0 ≤ q ∧ q ≤ 2 ^ f.bitsPerSample.toNat - 1
  else if f.bitsPerSample = 16 then single.Finite (C v) ∧ |single.value (C v)| < 65520
  else single.Finite (C v)

/-- A color value that is out of range, with a number of bits below 32 for integers. -/
def NoSample (C : ToFloat) (f : VFmt) (v : Dbl) : Prop :=
  if f.sampleType = stInteger then
    (∀ q, v ≠ .fin q) ∨ ∃ q, v = .fin q ∧ (q < 0 ∨ f.bitsPerSample < 32 ∧ 2 ^ f.bitsPerSample.toNat - 1 / 2 ≤ q)
  else if f.bitsPerSample = 16 then ¬ single.Finite (C v) ∨ 65520 ≤ |single.value (C v)|
  else ¬ single.Finite (C v)

/-- Black. -/
def black (f : VFmt) (p : Nat) : Nat :=
  if f.sampleType = stInteger ∧ f.colorFamily = cfYUV ∧ p ≠ 0 then 2 ^ (f.bitsPerSample.toNat - 1) else 0

/-- An argument, or what the clip says, or the default. -/
def choice (arg clip : Option Int) (default : Int) : Int := (arg.or clip).getD default

/-- The next number an `int` can hold. -/
def toInt (i : Int) : Int := max INT_MIN (min INT_MAX i)

/-- The frame rate asked for. -/
def askNum (a : Args) : Int := choice a.fpsnum (a.clip.map (·.fpsNum)) 24

/-- The frame rate asked for. -/
def askDen (a : Args) : Int := choice a.fpsden (a.clip.map (·.fpsDen)) 1

/-- The frame rate in lowest terms; 0 / 0 if it is unknown. -/
def fps (a : Args) : Int × Int :=
  if askNum a = 0 ∨ askDen a = 0 then (0, 0)
  else (((askNum a : Rat) / askDen a).num, (((askNum a : Rat) / askDen a).den : Int))

/-- Ten seconds, or 300 frames. -/
def tenSeconds (a : Args) : Int :=
  if askNum a = 0 ∨ askDen a = 0 then 300 else toInt (10 * ((askNum a : Rat) / askDen a)).floor

/-- The format asked for. RGB24 is the default. -/
def format (r : Reg) (a : Args) : VFmt :=
  match a.format, a.clip with
  | some i, _ => (getVideoFormatByID r (toInt i % 4294967296).toNat).2
  | none, some vi => vi.format
  | none, none => ⟨cfRGB, stInteger, 8, 1, 0, 0, 3⟩

/-- The clip asked for. -/
def wanted (r : Reg) (a : Args) : VInfo :=
  { format := format r a
    fpsNum := (fps a).1
    fpsDen := (fps a).2
    width := choice (a.width.map toInt) (a.clip.map (·.width)) 640
    height := choice (a.height.map toInt) (a.clip.map (·.height)) 480
    numFrames := choice (a.length.map toInt) (a.clip.map (·.numFrames)) (tenSeconds a) }

/-- What the node says about itself. -/
def declared (r : Reg) (a : Args) : VInfo :=
  let vi := wanted r a
  { vi with
    width := if a.varsize.getD 0 = 0 then vi.width else 0
    height := if a.varsize.getD 0 = 0 then vi.height else 0
    format := if a.varformat.getD 0 = 0 then vi.format else ⟨0, 0, 0, 0, 0, 0, 0⟩ }

/-- Arguments of type `int64_t` and a clip that exists. -/
structure ArgsOk (a : Args) : Prop where
  num : ∀ i, a.fpsnum = some i → InI64 i
  den : ∀ i, a.fpsden = some i → InI64 i
  clip : ∀ vi, a.clip = some vi → isValidVideoInfo vi = .ok true ∧ vi.fpsNum ≤ INT64_MAX ∧ vi.fpsDen ≤ INT64_MAX ∧
    vi.height ≤ INT_MAX

/-- The number of frames can be computed: ten times the frame rate is an `int64_t`, or it is not needed. -/
def LengthOk (a : Args) : Prop :=
  a.length = none → a.clip = none → 10 * (fps a).1 ≤ INT64_MAX

/-- A clip that can be made. -/
structure Possible (C : ToFloat) (r : Reg) (a : Args) : Prop where
  rate : 0 ≤ askNum a ∧ 0 ≤ askDen a
  known : (format r a).colorFamily ≠ cfUndefined
  width : 0 < (wanted r a).width ∧ (2 ^ (format r a).subSamplingW.toNat : Int) ∣ (wanted r a).width
  height : 0 < (wanted r a).height ∧ (2 ^ (format r a).subSamplingH.toNat : Int) ∣ (wanted r a).height
  length : 1 ≤ (wanted r a).numFrames
  color : a.color = [] ∨ ((a.color.length : Int) = (format r a).numPlanes ∧ ∀ v ∈ a.color, HasSample C (format r a) v)

/-- A clip that cannot be made. -/
inductive Impossible (C : ToFloat) (r : Reg) (a : Args) : Prop where
  | rate (h : askNum a < 0 ∨ askDen a < 0)
  | unknown (h : (format r a).colorFamily = cfUndefined)
  | width (h : (wanted r a).width ≤ 0 ∨ ¬ (2 ^ (format r a).subSamplingW.toNat : Int) ∣ (wanted r a).width)
  | height (h : (wanted r a).height ≤ 0 ∨ ¬ (2 ^ (format r a).subSamplingH.toNat : Int) ∣ (wanted r a).height)
  | length (h : (wanted r a).numFrames ≤ 0)
  | count (h : a.color ≠ [] ∧ (a.color.length : Int) ≠ (format r a).numPlanes)
  | color (h : ∃ v ∈ a.color, NoSample C (format r a) v)

/-- The sample that fills plane `p`. -/
def Fills (C : ToFloat) (f : VFmt) (color : List Dbl) (p c : Nat) : Prop :=
  match color[p]? with
  | some v => SampleFor C f v c
  | none => c = black f p

/-- The properties of a frame: how long it is shown, if the frame rate is known, and nothing else. -/
structure OnlyDuration (num den : Int) (d : Dict) : Prop where
  known : 0 < num → d.get "_DurationNum" = some (.int, [.int den]) ∧ d.get "_DurationDen" = some (.int, [.int num])
  unknown : num = 0 → d.get "_DurationNum" = none ∧ d.get "_DurationDen" = none
  rest : ∀ k, k ≠ "_DurationNum" → k ≠ "_DurationDen" → d.get k = none

/-- A frame of one color. -/
structure BlankFrame (al : Nat) (C : ToFloat) (vi : VInfo) (color : List Dbl) (f : Frm) : Prop where
  valid : Valid al f
  fmt : f.fmt = vi.format
  width : (f.width : Int) = vi.width
  height : (f.height : Int) = vi.height
  props : OnlyDuration vi.fpsNum vi.fpsDen f.props
  plane : ∀ p : Nat, (p : Int) < vi.format.numPlanes → ∃ c, Fills C vi.format color p c ∧
    ∀ x y, x < f.w p → y < f.h p → (img al f p).px x y = bytesOf (bps f.fmt) c

/-! ## AssumeFPS -/

/-- The frame rate asked for: the arguments, or that of the other clip. Exactly one of both must be given. -/
def rate (fpsnum fpsden : Option Int) (src : Option VInfo) : Option (Int × Int) :=
  match fpsnum, src with
  | some n, none => some (n, fpsden.getD 1)
  | none, some s => some (s.fpsNum, s.fpsDen)
  | _, _ => none

/-- The frame `g` is the frame `f`, shown for `den` / `num` seconds. -/
structure Retimed (num den : Int) (f g : Frm) : Prop where
  fmt : g.fmt = f.fmt
  width : g.width = f.width
  height : g.height = f.height
  planes : g.planes = f.planes
  durNum : g.props.get "_DurationNum" = some (.int, [.int den])
  durDen : g.props.get "_DurationDen" = some (.int, [.int num])
  rest : ∀ k, k ≠ "_DurationNum" → k ≠ "_DurationDen" → g.props.get k = f.props.get k

end VS.Blank.Spec
