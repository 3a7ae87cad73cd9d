import Verif.Point.Spec

/-!
# What the text filters promise

The text is broken into lines and each line into pieces that fit between margins of 16 pixels; as many pieces as fit are
shown. Where the text is, the picture shows the characters, enlarged `s` times, in white on black and without color;
everywhere else it is as before. A character is 8 pixels wide and 16 pixels high.
-/

namespace VS.Text.Spec
open VS VS.Format VS.Map VS.Map.Spec VS.Pix VS.Pix.Spec VS.Point.Spec

/-- Codes of ISO 8859-1 / Windows-1252 for which the font has no picture. -/
def missing : List Nat := [129, 141, 143, 144, 157]

/-- The number of the picture for a code: control characters and missing ones are shown as `_`, for the others the missing
ones before them are not counted. -/
def glyph (c : Nat) : Nat := if c < 32 ∨ c ∈ missing then 95 else c - (missing.filter (· < c)).length

/-- No line break inside. -/
def Plain (l : List Nat) : Prop := 10 ∉ l ∧ 13 ∉ l

/-- A text is the lines `ls` with line breaks between them: line feed, carriage return, or both in the usual order. -/
inductive Breaks : List Nat → List (List Nat) → Prop where
  | last (l : List Nat) : Plain l → Breaks l [l]
  | lf (l t : List Nat) (ls : List (List Nat)) : Plain l → Breaks t ls → Breaks (l ++ 10 :: t) (l :: ls)
  | crlf (l t : List Nat) (ls : List (List Nat)) : Plain l → Breaks t ls → Breaks (l ++ 13 :: 10 :: t) (l :: ls)
  | cr (l t : List Nat) (ls : List (List Nat)) : Plain l → t.head? ≠ some 10 → Breaks t ls → Breaks (l ++ 13 :: t) (l :: ls)

/-- A line cut into pieces of `cap` characters; the last one may be shorter, and only an empty line has an empty piece. -/
structure Cut (cap : Nat) (line : List Nat) (pieces : List (List Nat)) : Prop where
  same : pieces.flatten = line
  nonempty : pieces ≠ []
  full : ∀ (i : Nat) (p : List Nat), i + 1 < pieces.length → pieces[i]? = some p → p.length = cap
  short : ∀ p ∈ pieces, p.length ≤ cap
  empty : [] ∈ pieces → pieces = [[]]

/-- The lines that are shown on a picture of `W` × `H` pixels. -/
def Page (W H s : Nat) (text : List Nat) (L : List (List Nat)) : Prop :=
  ∃ (ls : List (List Nat)) (pieces : List (List (List Nat))), Breaks text ls ∧
    pieces.length = ls.length ∧
    (∀ (i : Nat) (l : List Nat) (ps : List (List Nat)), ls[i]? = some l → pieces[i]? = some ps →
      Cut ((W - 32) / (8 * s)) (l.map glyph) ps) ∧
    L = pieces.flatten.take ((H - 32) / (16 * s))

/-- The column where a line of `k` characters begins: left, in the middle or right, like the keys of a number pad. -/
def left (alignment W s k : Nat) : Nat :=
  if alignment % 3 = 1 then 16 else if alignment % 3 = 2 then (W - 8 * s * k) / 2 else W - 8 * s * k - 16

/-- The row where the text begins. -/
def top (alignment H s rows : Nat) : Nat :=
  if 7 ≤ alignment then 16 else if 4 ≤ alignment then (H - 16 * s * rows) / 2 else H - 16 * s * rows - 16

/-- Character `c` of the lines `L` has its upper left corner in column `x` and row `y`. -/
def Cell (L : List (List Nat)) (alignment W H s : Nat) (c x y : Nat) : Prop :=
  ∃ (i j : Nat) (line : List Nat), L[i]? = some line ∧ line[j]? = some c ∧
    x = left alignment W s line.length + 8 * s * j ∧ y = top alignment H s L.length + 16 * s * i

/-- Is the pixel in column `u` and row `v` of a character set? -/
def ink (font : Nat → Nat) (c u v : Nat) : Bool := (font (c * 16 + v)).testBit (7 - u)

/-- White: 235 of 256 for integers, 1 for floating point numbers. -/
def white (f : VFmt) : Nat :=
  if f.sampleType = stInteger then 235 * 2 ^ (f.bitsPerSample.toNat - 8)
  else if f.bitsPerSample = 16 then 0x3C00 else 0x3F800000

/-- Black: 16 of 256 for integers, 0 for floating point numbers. -/
def black (f : VFmt) : Nat := if f.sampleType = stInteger then 16 * 2 ^ (f.bitsPerSample.toNat - 8) else 0

/-- No color: the middle for integers, 0 for floating point numbers. -/
def gray (f : VFmt) : Nat := if f.sampleType = stInteger then 2 ^ (f.bitsPerSample.toNat - 1) else 0

/-- `g` is the frame `f` with the lines `L` on it. Planes without color show the characters. -/
structure Drawn (al : Nat) (font : Nat → Nat) (f g : Frm) (L : List (List Nat)) (alignment s : Nat) : Prop where
  fmt : g.fmt = f.fmt
  width : g.width = f.width
  height : g.height = f.height
  props : g.props = f.props
  valid : Valid al g
  /-- Every pixel of a character. -/
  inside : ∀ p x y c u v : Nat, (p : Int) < f.fmt.numPlanes → p = 0 ∨ f.fmt.colorFamily = cfRGB →
    Cell L alignment f.width f.height s c x y → u < 8 * s → v < 16 * s →
    smp al g p (x + u) (y + v) = if ink font c (u / s) (v / s) then white f.fmt else black f.fmt
  /-- Every pixel that belongs to no character. -/
  outside : ∀ p x y : Nat, (p : Int) < f.fmt.numPlanes → p = 0 ∨ f.fmt.colorFamily = cfRGB → x < f.w p → y < f.h p →
    (∀ c x' y' : Nat, Cell L alignment f.width f.height s c x' y' → ¬ (x' ≤ x ∧ x < x' + 8 * s ∧ y' ≤ y ∧ y < y' + 16 * s)) →
    smp al g p x y = smp al f p x y
  /-- Color under a character. -/
  chroma : ∀ p x y c u v : Nat, (p : Int) < f.fmt.numPlanes → p ≠ 0 → f.fmt.colorFamily ≠ cfRGB →
    Cell L alignment f.width f.height s c x y →
    u < 8 * s / 2 ^ ssw f.fmt p → v < 16 * s / 2 ^ ssh f.fmt p →
    smp al g p (x / 2 ^ ssw f.fmt p + u) (y / 2 ^ ssh f.fmt p + v) = gray f.fmt
  /-- All other color. -/
  color : ∀ p x y : Nat, (p : Int) < f.fmt.numPlanes → p ≠ 0 → f.fmt.colorFamily ≠ cfRGB → x < f.w p → y < f.h p →
    (∀ c x' y' : Nat, Cell L alignment f.width f.height s c x' y' →
      ¬ (x' / 2 ^ ssw f.fmt p ≤ x ∧ x < x' / 2 ^ ssw f.fmt p + 8 * s / 2 ^ ssw f.fmt p ∧
        y' / 2 ^ ssh f.fmt p ≤ y ∧ y < y' / 2 ^ ssh f.fmt p + 16 * s / 2 ^ ssh f.fmt p)) →
    smp al g p x y = smp al f p x y

/-- `l` is the number `n` in decimal digits (codes 48 to 57) without leading zeros. -/
structure Decimal (n : Nat) (l : List Nat) : Prop where
  digits : ∀ d ∈ l, 48 ≤ d ∧ d ≤ 57
  value : l.foldl (fun a d => 10 * a + (d - 48)) 0 = n
  nonempty : l ≠ []
  zero : l.head? = some 48 → l = [48]

/-- Formats of clips that are accepted: as `Workable`, but also variable ones, whose frames are checked one by one. -/
def Accepted (f : VFmt) : Prop :=
  (f.sampleType = stInteger → f.bitsPerSample ≤ 16) ∧ (f.sampleType = stFloat → f.bitsPerSample = 16 ∨ f.bitsPerSample = 32)

end VS.Text.Spec
