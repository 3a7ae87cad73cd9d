import Verif.Point.Mem

/-!
# The text filters

Model of Text, FrameNum, ClipInfo, CoreInfo and FrameProps, src/core/textfilter.cpp.

Simplifications: a text is a list of bytes. What ClipInfo, CoreInfo and FrameProps write about a frame is a parameter; the
texts of Text and FrameNum are given exactly. The bitmap of the font, src/core/ter-116n.h, is a parameter; only its length
is known. CoreInfo without a clip, which makes one with BlankClip, is left out. Pointers are offsets into the plane;
`dest_y*stride/2` and the like are computed as they are, the products fit into `ptrdiff_t`.
-/

namespace VS.Text
open VS VS.Format VS.Map VS.Map.Spec VS.Pix VS.Point

/-- The number of bytes of `__font_bitmap__`, src/core/ter-116n.h:282-4801: 251 characters of 16 rows. -/
def fontSize : Nat := 4016

/-- `__font_bitmap__[c * character_height + row] & (1 << (7 - col))`, textfilter.cpp:50. -/
def fontBit (font : Nat → Nat) (c row col : Nat) : Res Bool :=
  if c * 16 + row < fontSize ∧ col ≤ 7 then .ok (font (c * 16 + row) / 2 ^ (7 - col) % 2 == 1) else .ub

/-! ## The lines -/

/-- One character that is not a line break, textfilter.cpp:127-148. -/
def adjust (c : Nat) : Nat :=
  if c < 32 ∨ c = 129 ∨ c = 141 ∨ c = 143 ∨ c = 144 ∨ c = 157 then 95
  else if c > 157 then c - 5
  else if c > 144 then c - 4
  else if c > 141 then c - 2
  else if c > 129 then c - 1
  else c

/-- `sanitise_text`, textfilter.cpp:114-150. -/
def sanitise : List Nat → List Nat
  | [] => []
  | c :: t =>
    if c = 13 then
      match t with
      | 10 :: t => 10 :: sanitise t
      | t => 10 :: sanitise t
    else if c = 10 then 10 :: sanitise t
    else adjust c :: sanitise t

/-- The split at `\n`, textfilter.cpp:156-166; `cur` is the line so far. -/
def splitLines : List Nat → List Nat → List (List Nat)
  | cur, [] => [cur]
  | cur, c :: t => if c = 10 then cur :: splitLines [] t else splitLines (cur ++ [c]) t

/-- The loop that splits one line and goes on with the rest of it, textfilter.cpp:168-175. -/
def wrapLine (cap : Nat) (line : List Nat) : List (List Nat) :=
  if 0 < cap ∧ line.length > cap then line.take cap :: wrapLine cap (line.drop cap) else [line]
termination_by line.length
decreasing_by
  rw [List.length_drop]
  omega

/-- `split_text`, textfilter.cpp:153-184. With no capacity the loop would insert the same line again and again until the
memory is used up. -/
def splitText (txt : List Nat) (width height scale : Nat) : Res (List (List Nat)) :=
  let lines := splitLines [] txt
  let hcap := width / 8 / scale
  if hcap = 0 ∧ lines.any (fun l => decide (l.length > 0)) then .fatal "out of memory"
  else .ok ((lines.flatMap (wrapLine hcap)).take (height / 16 / scale))

/-! ## Drawing -/

/-- The number of bytes that the functions for characters write, textfilter.cpp:43-112, 245-251. -/
def charBytes (f : VFmt) : Nat :=
  if f.sampleType = stInteger then (if f.bitsPerSample = 8 then 1 else 2) else if f.bitsPerSample = 16 then 2 else 4

/-- `white`, textfilter.cpp:45, 76, 97. -/
def white (f : VFmt) : Nat :=
  if f.sampleType = stInteger then 235 * 2 ^ (f.bitsPerSample - 8).toNat
  else if f.bitsPerSample = 16 then 0x3C00 else 0x3F800000

/-- `black`, textfilter.cpp:44, 77, 98. -/
def black (f : VFmt) : Nat := if f.sampleType = stInteger then 16 * 2 ^ (f.bitsPerSample - 8).toNat else 0

/-- `scrawl_character_int`, `scrawl_character_float` and `scrawl_character_half`, textfilter.cpp:43-112. -/
def scrawlChar (font : Nat → Nat) (f : VFmt) (c stride : Nat) (destX destY : Int) (scale : Nat) (b : Buf) : Res Buf :=
  forN (fun y b => do
    let dy ← i32 (destY + y)
    forN (fun x b => do
      let bit ← fontBit font c (y / scale) (x / scale)
      let dx ← i32 (destX + x)
      wr b (charBytes f) (charBytes f * ((dy * stride).tdiv (charBytes f) + dx)) (if bit then white f else black f))
      (8 * scale) b) (16 * scale) b

/-- The number of bytes that the erasing of chroma writes, textfilter.cpp:273-289. -/
def clearBytes (f : VFmt) : Nat :=
  if f.sampleType = stFloat ∧ f.bitsPerSample = 16 then 2
  else if f.bitsPerSample = 8 then 1 else if f.bitsPerSample ≤ 16 then 2 else 4

/-- The value of erased chroma, textfilter.cpp:273-289. -/
def neutral (f : VFmt) : Nat :=
  if f.sampleType = stFloat ∧ f.bitsPerSample = 16 then 0
  else if f.bitsPerSample = 8 then 128 else if f.bitsPerSample ≤ 16 then 128 * 2 ^ (f.bitsPerSample - 8).toNat else 0

/-- Erase the chroma of a character, textfilter.cpp:267-289. -/
def clearChroma (f : VFmt) (stride : Nat) (destX destY : Int) (scale : Nat) (b : Buf) : Res Buf := do
  let sw ← i32 (scale * 8)
  let sh ← i32 (scale * 16)
  let subW := (sw / 2 ^ f.subSamplingW.toNat).toNat
  let subH := (sh / 2 ^ f.subSamplingH.toNat).toNat
  let subX := destX / 2 ^ f.subSamplingW.toNat
  let subY := destY / 2 ^ f.subSamplingH.toNat
  forN (fun y b => do
    let dy ← i32 (y + subY)
    memset b (clearBytes f * ((dy * stride).tdiv (clearBytes f) + subX)) (clearBytes f) (neutral f) subW) subH b

/-- One character in all planes, textfilter.cpp:240-292. -/
def drawChar (al : Nat) (font : Nat → Nat) (fr : Frm) (scale c : Nat) (destX destY : Int) (ps : List Buf) : Res (List Buf) :=
  mapPlanes (fun p b =>
    if fr.fmt.colorFamily = cfRGB ∨ p = 0 then scrawlChar font fr.fmt c (fr.stride al p) destX destY scale b
    else clearChroma fr.fmt (fr.stride al p) destX destY scale b) 0 ps

/-- `static_cast<int>(n) * size * scale`, textfilter.cpp:208, 213, 227, 232, 237. -/
def extent (n size scale : Nat) : Res Int := do
  let a ← i32 (n * size : Nat)
  i32 (a * scale)

/-- The characters of a line from number `i` on, textfilter.cpp:236-293. -/
def drawLine (draw : Nat → Int → Int → List Buf → Res (List Buf)) (startX y : Int) (scale : Nat) :
    Nat → List Nat → List Buf → Res (List Buf)
  | _, [], ps => .ok ps
  | i, c :: t, ps => do
    let e ← extent i 8 scale
    let dx ← i32 (startX + e)
    let ps ← draw c dx y ps
    drawLine draw startX y scale (i + 1) t ps

/-- The left end of a line, textfilter.cpp:218-234. -/
def startX (alignment : Int) (width len scale : Nat) : Res Int := do
  let e ← extent len 8 scale
  if alignment = 1 ∨ alignment = 4 ∨ alignment = 7 then .ok 16
  else if alignment = 2 ∨ alignment = 5 ∨ alignment = 8 then i32 ((width - e).tdiv 2)
  else i32 (width - e - 16)

/-- The top of the text, textfilter.cpp:199-215. -/
def startY (alignment : Int) (height len scale : Nat) : Res Int := do
  let e ← extent len 16 scale
  if alignment = 7 ∨ alignment = 8 ∨ alignment = 9 then .ok 16
  else if alignment = 4 ∨ alignment = 5 ∨ alignment = 6 then i32 ((height - e).tdiv 2)
  else i32 (height - e - 16)

/-- The loop over the lines, textfilter.cpp:217-295. -/
def drawLines (draw : Nat → Int → Int → List Buf → Res (List Buf)) (alignment : Int) (width scale : Nat) :
    Int → List (List Nat) → List Buf → Res (List Buf)
  | _, [], ps => .ok ps
  | y, l :: t, ps => do
    let x ← startX alignment width l.length scale
    let ps ← drawLine draw x y scale 0 l ps
    let d ← i32 (16 * scale)
    let y ← i32 (y + d)
    drawLines draw alignment width scale y t ps

/-- `scrawl_text`, textfilter.cpp:187-296. -/
def scrawlText (al : Nat) (font : Nat → Nat) (txt : List Nat) (alignment : Int) (scale : Nat) (fr : Frm) : Res Frm := do
  let w ← i32 (fr.width - 32)
  let h ← i32 (fr.height - 32)
  let lines ← splitText (sanitise txt) w.toNat h.toNat scale
  let y ← startY alignment fr.height lines.length scale
  let ps ← drawLines (drawChar al font fr scale) alignment fr.width scale y lines fr.planes
  .ok { fr with planes := ps }

/-! ## The filter -/

/-- `textGetFrame`, textfilter.cpp:520-667; `text n f` is what is to be written. -/
def textReady (al : Nat) (font : Nat → Nat) (name : String) (text : Nat → Frm → List Nat) (alignment : Int) (scale n : Nat)
    (src : Frm) : Res Frm :=
  if is8to16orFloat src.fmt = false then .err (badFormat name)
  else do
    let a ← i32 (8 * scale)
    let mw ← i32 (32 + a)
    let b ← i32 (16 * scale)
    let mh ← i32 (32 + b)
    if (src.width : Int) < mw ∨ (src.height : Int) < mh then
      .err (name ++ ": frame size must be at least " ++ toString mw ++ "x" ++ toString mh ++ " pixels.")
    else scrawlText al font (text n src) alignment scale src

/-- `is8to16orFloatFormat` with variable formats, src/core/filtershared.h:159-168. -/
def is8to16orFloatVar (f : VFmt) : Bool :=
  if (f.sampleType = stInteger ∧ f.bitsPerSample > 16) ∨
      (f.sampleType = stFloat ∧ ¬ (f.bitsPerSample = 32 ∨ f.bitsPerSample = 16)) then false
  else true

/-- `invalidVideoFormatMessage` for variable formats, src/core/filtershared.h:170-187, without the name of the format. -/
def badFormatVar (name : String) : String := name ++ ": Input clip must be 8..16 bit integer or 16-32 bit float"

/-- `textCreate`, textfilter.cpp:677-761; `alignment` and `scale` are the arguments if they are given. -/
def textCreate (al : Nat) (font : Nat → Nat) (name : String) (text : Nat → Frm → List Nat) (vi : VInfo)
    (alignment scale : Option Int) : Res Created :=
  if is8to16orFloatVar vi.format = false then .err (badFormatVar "Text")
  else
    let a := (alignment.map int64ToIntS).getD 7
    if a < 1 ∨ a > 9 then .err "Text: alignment must be between 1 and 9 (think numpad)"
    else
      let s := (scale.map int64ToIntS).getD 1
      if s < 1 ∨ s > 65536 then .err "Text: scale must be a positive integer no larger than 65536"
      else create ⟨vi, fun n => [(0, n)], fun n get _ => get 0 n >>= fun src => textReady al font name text a s.toNat n src⟩

/-- `d->text = vsapi->mapGetData(in, "text", 0, nullptr)`, textfilter.cpp:733: the bytes up to the first zero. -/
def textText (data : List Nat) : Nat → Frm → List Nat := fun _ _ => data.takeWhile (· ≠ 0)

/-- `std::to_string(n)`, textfilter.cpp:550. -/
def frameNumText : Nat → Frm → List Nat := fun n _ => (Nat.toDigits 10 n).map Char.toNat

end VS.Text
