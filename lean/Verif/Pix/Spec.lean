import Verif.Pix.Model
import Verif.Rational.Props

/-!
# What the filters that move pixels promise

A plane is seen as a picture: width, height and the bytes of the pixel in column `x` and row `y`. Nothing here knows about
strides and alignment except for `Frm.img`, which says where the documentation of `getReadPtr` and `getStride` puts the
pixels.
-/

namespace VS.Pix.Spec
open VS VS.Format VS.Map VS.Map.Spec VS.Pix

/-- A picture. -/
structure Img where
  w : Nat
  h : Nat
  px : Nat → Nat → List Nat

/-- The same picture: same size, same pixels. -/
def Img.Same (a b : Img) : Prop := a.w = b.w ∧ a.h = b.h ∧ ∀ x y, x < a.w → y < a.h → a.px x y = b.px x y

/-- Plane `p` of a frame: pixel `x`, `y` is `bps` bytes at `y * stride + x * bps`. -/
def img (al : Nat) (f : Frm) (p : Nat) : Img :=
  ⟨f.w p, f.h p, fun x y => (List.range (bps f.fmt)).map fun k =>
    match f.planes[p]? with
    | some b => b.byte (y * f.stride al p + x * bps f.fmt + k)
    | none => 0⟩

/-- The bytes of a number with `n` bytes, lowest first. -/
def bytesOf (n v : Nat) : List Nat := (List.range n).map fun k => v / 256 ^ k % 256

/-- The part of a picture with the corner `l`, `t`. -/
def crop (l t w h : Nat) (i : Img) : Img := ⟨w, h, fun x y => i.px (x + l) (y + t)⟩

/-- A picture with borders. -/
def border (l r t b : Nat) (c : List Nat) (i : Img) : Img :=
  ⟨l + i.w + r, t + i.h + b, fun x y => if l ≤ x ∧ x < l + i.w ∧ t ≤ y ∧ y < t + i.h then i.px (x - l) (y - t) else c⟩

/-- Upside down. -/
def flipV (i : Img) : Img := ⟨i.w, i.h, fun x y => i.px x (i.h - 1 - y)⟩

/-- Mirrored. -/
def flipH (i : Img) : Img := ⟨i.w, i.h, fun x y => i.px (i.w - 1 - x) y⟩

/-- Rotated by 180 degrees. -/
def turn180 (i : Img) : Img := ⟨i.w, i.h, fun x y => i.px (i.w - 1 - x) (i.h - 1 - y)⟩

/-- Rows and columns exchanged. -/
def transpose (i : Img) : Img := ⟨i.h, i.w, fun x y => i.px y x⟩

/-- Rotated clockwise: the left column becomes the top row. -/
def turn90 (i : Img) : Img := ⟨i.h, i.w, fun x y => i.px y (i.h - 1 - x)⟩

/-- Rotated counterclockwise. -/
def turn270 (i : Img) : Img := ⟨i.h, i.w, fun x y => i.px (i.w - 1 - y) x⟩

/-- One above the other. -/
def above (a b : Img) : Img := ⟨a.w, a.h + b.h, fun x y => if y < a.h then a.px x y else b.px x (y - a.h)⟩

/-- Side by side. -/
def beside (a b : Img) : Img := ⟨a.w + b.w, a.h, fun x y => if x < a.w then a.px x y else b.px (x - a.w) y⟩

/-- Several pictures, from top to bottom. -/
def aboveAll (a : Img) (l : List Img) : Img := l.foldl above a

/-- Several pictures, from left to right. -/
def besideAll (a : Img) (l : List Img) : Img := l.foldl beside a

/-- Every other row, from the first or from the second one on. -/
def field (top : Bool) (i : Img) : Img := ⟨i.w, i.h / 2, fun x y => i.px x (2 * y + if top then 0 else 1)⟩

/-- Two fields interleaved. -/
def weave (top bottom : Img) : Img :=
  ⟨top.w, 2 * top.h, fun x y => if y % 2 = 0 then top.px x (y / 2) else bottom.px x (y / 2)⟩

/-! ## Valid frames and clips -/

/-- A frame as the core makes it: a valid format, a size that fits to the subsampling, planes of the right size. Rows are
shorter than 2 GiB. -/
structure Valid (al : Nat) (f : Frm) : Prop where
  fmt : isValidVideoStruct f.fmt = true
  known : f.fmt.colorFamily ≠ cfUndefined
  width : 0 < f.width
  height : 0 < f.height
  modW : 2 ^ f.fmt.subSamplingW.toNat ∣ f.width
  modH : 2 ^ f.fmt.subSamplingH.toNat ∣ f.height
  row : (f.width : Int) * bps f.fmt ≤ INT_MAX
  rows : (f.height : Int) ≤ INT_MAX
  count : (f.planes.length : Int) = f.fmt.numPlanes
  size : ∀ p b, f.planes[p]? = some b → b.size = f.stride al p * f.h p

/-- A node delivers as many frames as it says, of the format and size it says. -/
structure ValidClip (al : Nat) (c : PClip) : Prop where
  info : isValidVideoInfo c.vi = .ok true
  count : c.vi.numFrames = c.frames.length
  range : c.vi.numFrames ≤ INT_MAX
  frames : ∀ f ∈ c.frames, Valid al f
  fmt : ∀ f ∈ c.frames, c.vi.format.colorFamily ≠ cfUndefined → f.fmt = c.vi.format
  size : ∀ f ∈ c.frames, c.vi.width ≠ 0 ∨ c.vi.height ≠ 0 → (f.width : Int) = c.vi.width ∧ (f.height : Int) = c.vi.height

/-- Frame `n` of a clip; beyond the end it is the last one. -/
def at? (c : PClip) (n : Nat) : Option Frm := c.frames[min n (c.frames.length - 1)]?

/-- The node that is put into the output map. -/
def outInfo (c : Created) (clips : List PClip) : Option VInfo :=
  match c with
  | .pass i => (clips[i]?).map (·.vi)
  | .filter f => some f.vi

/-- `d` is the clip with the frames of the result of a filter. -/
structure Delivers (c : Created) (clips : List PClip) (d : PClip) : Prop where
  vi : outInfo c clips = some d.vi
  count : d.vi.numFrames = d.frames.length
  frames : ∀ n f, d.frames[n]? = some f → ∃ junk, c.frame clips n junk = .ok f

/-- The alignment of rows on all machines, src/core/vscore.cpp:2617-2625. -/
def AlignOk (al : Nat) : Prop := al = 32 ∨ al = 64

/-- An area inside of a frame that fits to the subsampling. -/
structure Inside (f : VFmt) (W H x y w h : Nat) : Prop where
  pos : 0 < w ∧ 0 < h
  inW : x + w ≤ W
  inH : y + h ≤ H
  modX : 2 ^ f.subSamplingW.toNat ∣ x
  modY : 2 ^ f.subSamplingH.toNat ∣ y
  modW : 2 ^ f.subSamplingW.toNat ∣ w
  modH : 2 ^ f.subSamplingH.toNat ∣ h

/-- Borders that fit to the subsampling. -/
structure BorderOk (f : VFmt) (l r t b : Nat) : Prop where
  modL : 2 ^ f.subSamplingW.toNat ∣ l
  modR : 2 ^ f.subSamplingW.toNat ∣ r
  modT : 2 ^ f.subSamplingH.toNat ∣ t
  modB : 2 ^ f.subSamplingH.toNat ∣ b

/-- Exchanging rows and columns also exchanges the subsampling. -/
def swapFmt (sw : Bool) (f : VFmt) : VFmt :=
  if sw then { f with subSamplingW := f.subSamplingH, subSamplingH := f.subSamplingW } else f

/-- Each plane of each frame of the result is the picture in the input changed by `T`; `sw` says whether width and height
are exchanged. The properties are those of the input. -/
def Applies (al : Nat) (C : Created) (c : PClip) (sw : Bool) (T : Img → Img) : Prop :=
  ∀ (n : Nat) f, at? c n = some f → ∀ junk, ∃ g, C.frame [c] n junk = .ok g ∧ Valid al g ∧ g.fmt = swapFmt sw f.fmt ∧
    g.width = (if sw then f.height else f.width) ∧ g.height = (if sw then f.width else f.height) ∧ g.props = f.props ∧
    ∀ p : Nat, (p : Int) < f.fmt.numPlanes → (img al g p).Same (T (img al f p))

/-- The result `C` for the clip `d` shows the pictures of `c` changed by `T`. -/
def Shows2 (al : Nat) (C : Created) (d c : PClip) (sw : Bool) (T : Img → Img) : Prop :=
  ∀ (n : Nat) f, (n : Int) < c.vi.numFrames → at? c n = some f → ∀ junk, ∃ g, C.frame [d] n junk = .ok g ∧
    g.fmt = swapFmt sw f.fmt ∧ g.width = (if sw then f.height else f.width) ∧
    g.height = (if sw then f.width else f.height) ∧ g.props = f.props ∧
    ∀ p : Nat, (p : Int) < f.fmt.numPlanes → (img al g p).Same (T (img al f p))

/-- What `Transpose`, `Turn90` and `Turn270` show. -/
def seen : TMode → Img → Img
  | .transpose => transpose
  | .turn90 => turn90
  | .turn270 => turn270

/-- The value of the border in plane `p`: the given color, or black. -/
def borderValue (f : VFmt) (color : List (Option Nat)) (p : Nat) : Nat :=
  match color[p]? with
  | some (some v) => v
  | _ => if f.sampleType = stInteger ∧ f.colorFamily = cfYUV ∧ p ≠ 0 then 2 ^ (f.bitsPerSample - 1).toNat else 0

/-- A valid color: one value for each plane, or none at all. -/
def ColorOk (f : VFmt) (color : List (Option Nat)) : Prop :=
  color = [] ∨ (color.length : Int) = f.numPlanes ∧ ∀ v ∈ color, v ≠ none

/-- The sum of the heights. -/
def sumH (l : List Frm) : Nat := (l.map (·.height)).sum

/-- The sum of the widths. -/
def sumW (l : List Frm) : Nat := (l.map (·.width)).sum

/-! ## Fields -/

/-- Is the top field the first one? The property `_FieldBased` says so (1: no, 2: yes), otherwise the argument does. -/
def topFirst (tff : Option Bool) (d : Dict) : Option Bool :=
  match propInt d "_FieldBased" with
  | some 1 => some false
  | some 2 => some true
  | _ => tff

/-- Frame `n` of the separated fields: is it the top field, if it is the first one according to `t`? -/
def isTop (n : Nat) (t : Bool) : Bool := if n % 2 = 0 then t else !t

/-- Half of the duration `a / b`, in lowest terms. -/
def halfOf (a b : Int) : Int × Int :=
  if b = 0 then (a, b) else
    let q : Rat := ((a : Rat) / b) * ((1 : Rat) / 2)
    (b.sign * q.num, b.sign * (q.den : Int))

/-- An integer and nothing else. -/
def one (i : Int) : Option Entry := some (.int, [.int i])

/-- The properties `e` of a field of a frame with the properties `d`. -/
structure FieldProps (d e : Dict) (top halve : Bool) : Prop where
  field : e.get "_Field" = one (if top then 1 else 0)
  based : e.get "_FieldBased" = none
  halved : ∀ a b, halve = true → propInt d "_DurationNum" = some a → propInt d "_DurationDen" = some b →
    e.get "_DurationNum" = one (halfOf a b).1 ∧ e.get "_DurationDen" = one (halfOf a b).2
  kept : halve = false ∨ propInt d "_DurationNum" = none ∨ propInt d "_DurationDen" = none →
    e.get "_DurationNum" = d.get "_DurationNum" ∧ e.get "_DurationDen" = d.get "_DurationDen"
  rest : ∀ k, k ≠ "_Field" → k ≠ "_FieldBased" → k ≠ "_DurationNum" → k ≠ "_DurationDen" → e.get k = d.get k

/-- Half of the duration can be computed with 64 bits. -/
def DurOk (d : Dict) : Prop :=
  ∀ a b, propInt d "_DurationNum" = some a → propInt d "_DurationDen" = some b → b ≠ 0 → Fits a ∧ Fits (b * 2)

/-- Is the first of two consecutive frames the top field? The properties `_Field` say so (0: bottom, 1: top) if they are
different, otherwise the argument says it for even numbers. -/
def firstTop (tff : Option Bool) (n : Nat) (d1 d2 : Dict) : Option Bool :=
  match propInt d1 "_Field", propInt d2 "_Field" with
  | some 0, some 1 => some false
  | some 1, some 0 => some true
  | _, _ => tff.map (isTop n)

end VS.Pix.Spec
