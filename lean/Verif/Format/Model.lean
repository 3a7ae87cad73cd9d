import Verif.Rational.Model

/-!
# Video and audio formats

Model of the format queries, identifiers, names and validity checks of the core,
src/core/vscore.cpp:1256-1426 and 1507-1792, and of the registry of formats kept for programs that
use version 3 of the interface.

Simplifications: conversions of an integer outside the enumerators to an enumeration type are taken
to keep the value; the calls that take `videoFormatLock` are atomic; a pointer to a version 3 format
is represented by the content of the entry it points to (entries are never changed or removed).
-/

namespace VS.Format
open VS

/-! ## Constants -/

/-- `VSColorFamily`, include/VapourSynth4.h:86-91. -/
def cfUndefined : Int := 0
/-- include/VapourSynth4.h:88. -/
def cfGray : Int := 1
/-- include/VapourSynth4.h:89. -/
def cfRGB : Int := 2
/-- include/VapourSynth4.h:90. -/
def cfYUV : Int := 3
/-- `VSSampleType`, include/VapourSynth4.h:93-96. -/
def stInteger : Int := 0
/-- include/VapourSynth4.h:95. -/
def stFloat : Int := 1

/-- `VSVideoFormat`, include/VapourSynth4.h:186-196. -/
structure VFmt where
  colorFamily : Int
  sampleType : Int
  bitsPerSample : Int
  bytesPerSample : Int
  subSamplingW : Int
  subSamplingH : Int
  numPlanes : Int
  deriving DecidableEq, Repr

/-- `f = {}`. -/
def VFmt.zero : VFmt := ⟨0, 0, 0, 0, 0, 0, 0⟩

/-- `VSAudioFormat`, include/VapourSynth4.h:226-232. -/
structure AFmt where
  sampleType : Int
  bitsPerSample : Int
  bytesPerSample : Int
  numChannels : Int
  channelLayout : Nat
  deriving DecidableEq, Repr

/-! ## Validity checks -/

/-- `VSCore::isValidVideoFormat(int, int, int, int, int)`, src/core/vscore.cpp:1507-1530. -/
def isValidVideoFormat (colorFamily sampleType bitsPerSample subSamplingW subSamplingH : Int) : Bool :=
  if colorFamily ≠ cfUndefined ∧ colorFamily ≠ cfGray ∧ colorFamily ≠ cfYUV ∧ colorFamily ≠ cfRGB then
    false
  else if colorFamily = cfUndefined ∧ subSamplingH = 0 ∧ subSamplingW = 0 ∧ bitsPerSample = 0 ∧
      sampleType = stInteger then
    true
  else if sampleType ≠ stInteger ∧ sampleType ≠ stFloat then
    false
  else if sampleType = stFloat ∧ (bitsPerSample ≠ 16 ∧ bitsPerSample ≠ 32) then
    false
  else if subSamplingH < 0 ∨ subSamplingW < 0 ∨ subSamplingH > 4 ∨ subSamplingW > 4 then
    false
  else if (colorFamily = cfRGB ∨ colorFamily = cfGray) ∧ (subSamplingH ≠ 0 ∨ subSamplingW ≠ 0) then
    false
  else if bitsPerSample < 8 ∨ bitsPerSample > 32 then
    false
  else
    true

/-- `VSCore::isValidVideoFormat(const VSVideoFormat &)`, src/core/vscore.cpp:1532-1550. -/
def isValidVideoStruct (f : VFmt) : Bool :=
  if !isValidVideoFormat f.colorFamily f.sampleType f.bitsPerSample f.subSamplingW f.subSamplingH then
    false
  else if f.colorFamily = cfUndefined then
    f.bytesPerSample = 0 ∧ f.numPlanes = 0
  else if f.numPlanes ≠ (if f.colorFamily = cfYUV ∨ f.colorFamily = cfRGB then 3 else 1) then
    false
  else if f.bitsPerSample = 8 ∧ f.bytesPerSample ≠ 1 then
    false
  else if f.bitsPerSample > 8 ∧ f.bitsPerSample ≤ 16 ∧ f.bytesPerSample ≠ 2 then
    false
  else if f.bitsPerSample > 16 ∧ f.bytesPerSample ≠ 4 then
    false
  else
    true

/-- `VSCore::isValidAudioFormat(int, int, uint64_t)`, src/core/vscore.cpp:1552-1566. -/
def isValidAudioFormat (sampleType bitsPerSample : Int) (channelLayout : Nat) : Bool :=
  if sampleType ≠ stInteger ∧ sampleType ≠ stFloat then
    false
  else if bitsPerSample < 16 ∨ bitsPerSample > 32 then
    false
  else if sampleType = stFloat ∧ bitsPerSample ≠ 32 then
    false
  else if channelLayout = 0 then
    false
  else
    true

/-- `std::bitset<64>::count`: the number of bits set in the lowest `n` bits. -/
def bitCount : Nat → Nat → Nat
  | 0, _ => 0
  | n + 1, x => x % 2 + bitCount n (x / 2)

/-- `VSCore::isValidAudioFormat(const VSAudioFormat &)`, src/core/vscore.cpp:1568-1582. -/
def isValidAudioStruct (f : AFmt) : Bool :=
  if !isValidAudioFormat f.sampleType f.bitsPerSample f.channelLayout then
    false
  else if f.numChannels ≠ bitCount 64 f.channelLayout then
    false
  else if f.bitsPerSample = 16 ∧ f.bytesPerSample ≠ 2 then
    false
  else if f.bitsPerSample > 16 ∧ f.bytesPerSample ≠ 4 then
    false
  else
    true

/-- `VSVideoInfo`, include/VapourSynth4.h:278-285. -/
structure VInfo where
  format : VFmt
  fpsNum : Int
  fpsDen : Int
  width : Int
  height : Int
  numFrames : Int
  deriving DecidableEq, Repr

/-- `VSCore::isValidVideoInfo`, src/core/vscore.cpp:1584-1601. -/
def isValidVideoInfo (vi : VInfo) : Res Bool :=
  if !isValidVideoStruct vi.format then
    .ok false
  else if vi.fpsDen < 0 ∨ vi.fpsNum < 0 ∨ vi.height < 0 ∨ vi.width < 0 ∨ vi.numFrames < 1 then
    .ok false
  else do
    let r ← reduceRational vi.fpsNum vi.fpsDen
    if r.1 ≠ vi.fpsNum ∨ r.2 ≠ vi.fpsDen then
      .ok false
    else if (decide (vi.height ≠ 0)) ^^ (decide (vi.width ≠ 0)) then
      .ok false
    else
      .ok true

/-- `VSAudioInfo`, include/VapourSynth4.h:287-292, without the implicit number of frames. -/
structure AInfo where
  format : AFmt
  sampleRate : Int
  numSamples : Int
  deriving DecidableEq, Repr

/-- `VSCore::isValidAudioInfo`, src/core/vscore.cpp:1603-1613. -/
def isValidAudioInfo (ai : AInfo) : Bool :=
  if !isValidAudioStruct ai.format then
    false
  else if ai.numSamples < 1 ∨ ai.sampleRate < 1 then
    false
  else
    true

/-! ## Queries -/

/-- The loop `while (f.bytesPerSample * 8 < bitsPerSample) f.bytesPerSample <<= 1;`,
src/core/vscore.cpp:1287-1288, 1417-1418 and 1397-1398.  The loop is cut off after `fuel` rounds; for
the at most 32 bits every caller has checked two rounds are enough, so 31 rounds cut nothing off. -/
def bytesLoop : Nat → Int → Int → Int
  | 0, bytes, _ => bytes
  | fuel + 1, bytes, bits => if bytes * 8 < bits then bytesLoop fuel (bytes * 2) bits else bytes

/-- `VSCore::queryVideoFormat`, src/core/vscore.cpp:1275-1296: the returned flag and the struct. -/
def queryVideoFormat (colorFamily sampleType bitsPerSample subSamplingW subSamplingH : Int) :
    Bool × VFmt :=
  if colorFamily = cfUndefined then
    (true, VFmt.zero)
  else if !isValidVideoFormat colorFamily sampleType bitsPerSample subSamplingW subSamplingH then
    (false, VFmt.zero)
  else
    (true, {
      colorFamily := colorFamily
      sampleType := sampleType
      bitsPerSample := bitsPerSample
      bytesPerSample := bytesLoop 31 1 bitsPerSample
      subSamplingW := subSamplingW
      subSamplingH := subSamplingH
      numPlanes := if colorFamily = cfGray then 1 else 3 })

/-- `VSCore::queryAudioFormat`, src/core/vscore.cpp:1408-1426.  `none`: false is returned and the
struct of the caller is left alone. -/
def queryAudioFormat (sampleType bitsPerSample : Int) (channelLayout : Nat) : Option AFmt :=
  if !isValidAudioFormat sampleType bitsPerSample channelLayout then
    none
  else
    some {
      sampleType := sampleType
      bitsPerSample := bitsPerSample
      bytesPerSample := bytesLoop 31 1 bitsPerSample
      numChannels := bitCount 64 channelLayout
      channelLayout := channelLayout }

/-- The lowest `n` bits of an `int` (`x & (2^n - 1)` in two's complement). -/
def lowBits (x : Int) (n : Nat) : Nat := (x % (2 ^ n : Nat)).toNat

/-- `VSCore::queryVideoFormatID`, src/core/vscore.cpp:1307-1311. -/
def queryVideoFormatID (colorFamily sampleType bitsPerSample subSamplingW subSamplingH : Int) : Nat :=
  if (!isValidVideoFormat colorFamily sampleType bitsPerSample subSamplingW subSamplingH) ||
      colorFamily == cfUndefined then
    0
  else
    (lowBits colorFamily 4 <<< 28) ||| (lowBits sampleType 4 <<< 24) |||
      (lowBits bitsPerSample 8 <<< 16) ||| (lowBits subSamplingW 8 <<< 8) |||
      (lowBits subSamplingH 8 <<< 0)

/-- `VS_MAKE_VIDEO_ID`, include/VapourSynth4.h:98, for the constants it is used with. -/
def makeVideoId (colorFamily sampleType bitsPerSample subSamplingW subSamplingH : Int) : Nat :=
  (colorFamily.toNat <<< 28) ||| (sampleType.toNat <<< 24) ||| (bitsPerSample.toNat <<< 16) |||
    (subSamplingW.toNat <<< 8) ||| (subSamplingH.toNat <<< 0)

/-- `VSPresetVideoFormat`, include/VapourSynth4.h:100-169: each constant with its name without the
leading `pf`. -/
def presets : List (List Char × Nat) := [
  ("Gray8".toList, makeVideoId cfGray stInteger 8 0 0),
  ("Gray9".toList, makeVideoId cfGray stInteger 9 0 0),
  ("Gray10".toList, makeVideoId cfGray stInteger 10 0 0),
  ("Gray12".toList, makeVideoId cfGray stInteger 12 0 0),
  ("Gray14".toList, makeVideoId cfGray stInteger 14 0 0),
  ("Gray16".toList, makeVideoId cfGray stInteger 16 0 0),
  ("Gray32".toList, makeVideoId cfGray stInteger 32 0 0),
  ("GrayH".toList, makeVideoId cfGray stFloat 16 0 0),
  ("GrayS".toList, makeVideoId cfGray stFloat 32 0 0),
  ("YUV410P8".toList, makeVideoId cfYUV stInteger 8 2 2),
  ("YUV411P8".toList, makeVideoId cfYUV stInteger 8 2 0),
  ("YUV440P8".toList, makeVideoId cfYUV stInteger 8 0 1),
  ("YUV420P8".toList, makeVideoId cfYUV stInteger 8 1 1),
  ("YUV422P8".toList, makeVideoId cfYUV stInteger 8 1 0),
  ("YUV444P8".toList, makeVideoId cfYUV stInteger 8 0 0),
  ("YUV420P9".toList, makeVideoId cfYUV stInteger 9 1 1),
  ("YUV422P9".toList, makeVideoId cfYUV stInteger 9 1 0),
  ("YUV444P9".toList, makeVideoId cfYUV stInteger 9 0 0),
  ("YUV420P10".toList, makeVideoId cfYUV stInteger 10 1 1),
  ("YUV422P10".toList, makeVideoId cfYUV stInteger 10 1 0),
  ("YUV444P10".toList, makeVideoId cfYUV stInteger 10 0 0),
  ("YUV420P12".toList, makeVideoId cfYUV stInteger 12 1 1),
  ("YUV422P12".toList, makeVideoId cfYUV stInteger 12 1 0),
  ("YUV444P12".toList, makeVideoId cfYUV stInteger 12 0 0),
  ("YUV420P14".toList, makeVideoId cfYUV stInteger 14 1 1),
  ("YUV422P14".toList, makeVideoId cfYUV stInteger 14 1 0),
  ("YUV444P14".toList, makeVideoId cfYUV stInteger 14 0 0),
  ("YUV410P16".toList, makeVideoId cfYUV stInteger 16 2 2),
  ("YUV411P16".toList, makeVideoId cfYUV stInteger 16 2 0),
  ("YUV440P16".toList, makeVideoId cfYUV stInteger 16 0 1),
  ("YUV420P16".toList, makeVideoId cfYUV stInteger 16 1 1),
  ("YUV422P16".toList, makeVideoId cfYUV stInteger 16 1 0),
  ("YUV444P16".toList, makeVideoId cfYUV stInteger 16 0 0),
  ("YUV410PH".toList, makeVideoId cfYUV stFloat 16 2 2),
  ("YUV410PS".toList, makeVideoId cfYUV stFloat 32 2 2),
  ("YUV411PH".toList, makeVideoId cfYUV stFloat 16 2 0),
  ("YUV411PS".toList, makeVideoId cfYUV stFloat 32 2 0),
  ("YUV440PH".toList, makeVideoId cfYUV stFloat 16 0 1),
  ("YUV440PS".toList, makeVideoId cfYUV stFloat 32 0 1),
  ("YUV420PH".toList, makeVideoId cfYUV stFloat 16 1 1),
  ("YUV420PS".toList, makeVideoId cfYUV stFloat 32 1 1),
  ("YUV422PH".toList, makeVideoId cfYUV stFloat 16 1 0),
  ("YUV422PS".toList, makeVideoId cfYUV stFloat 32 1 0),
  ("YUV444PH".toList, makeVideoId cfYUV stFloat 16 0 0),
  ("YUV444PS".toList, makeVideoId cfYUV stFloat 32 0 0),
  ("RGB24".toList, makeVideoId cfRGB stInteger 8 0 0),
  ("RGB27".toList, makeVideoId cfRGB stInteger 9 0 0),
  ("RGB30".toList, makeVideoId cfRGB stInteger 10 0 0),
  ("RGB36".toList, makeVideoId cfRGB stInteger 12 0 0),
  ("RGB42".toList, makeVideoId cfRGB stInteger 14 0 0),
  ("RGB48".toList, makeVideoId cfRGB stInteger 16 0 0),
  ("RGBH".toList, makeVideoId cfRGB stFloat 16 0 0),
  ("RGBS".toList, makeVideoId cfRGB stFloat 32 0 0)]

/-! ## Names -/

/-- `snprintf` into a buffer of `n` bytes: at most `n - 1` characters are kept. -/
def snprintf (n : Nat) (s : List Char) : List Char := s.take (n - 1)

/-- `%d`. -/
def fmtD (x : Int) : List Char :=
  if x < 0 then '-' :: Nat.toDigits 10 x.natAbs else Nat.toDigits 10 x.natAbs

/-- The suffix made at src/core/vscore.cpp:1724-1728 and 1346-1350; `rgb` is the colour family that
counts three samples. -/
def suffix (rgb colorFamily sampleType bitsPerSample : Int) : List Char :=
  if sampleType = stFloat then
    if bitsPerSample = 32 then "S".toList else "H".toList
  else
    snprintf 16 (fmtD ((if colorFamily = rgb then 3 else 1) * bitsPerSample))

/-- The choice of `yuvName`, src/core/vscore.cpp:1740-1751 and 1362-1373. -/
def yuvName (subSamplingW subSamplingH : Int) : Option (List Char) :=
  if subSamplingW = 1 ∧ subSamplingH = 1 then some "420".toList
  else if subSamplingW = 1 ∧ subSamplingH = 0 then some "422".toList
  else if subSamplingW = 0 ∧ subSamplingH = 0 then some "444".toList
  else if subSamplingW = 2 ∧ subSamplingH = 2 then some "410".toList
  else if subSamplingW = 2 ∧ subSamplingH = 0 then some "411".toList
  else if subSamplingW = 0 ∧ subSamplingH = 1 then some "440".toList
  else none

/-- The YUV case of the name, src/core/vscore.cpp:1739-1756 and 1361-1378. -/
def yuvFormatName (subSamplingW subSamplingH : Int) (suf : List Char) : List Char :=
  match yuvName subSamplingW subSamplingH with
  | some y => snprintf 32 ("YUV".toList ++ y ++ "P".toList ++ suf)
  | none =>
    snprintf 32 ("YUVssw".toList ++ fmtD subSamplingW ++ "ssh".toList ++ fmtD subSamplingH ++
      "P".toList ++ suf)

/-- `VSCore::getVideoFormatName`, src/core/vscore.cpp:1720-1762.  `none`: false is returned. -/
def getVideoFormatName (f : VFmt) : Option (List Char) :=
  if !isValidVideoFormat f.colorFamily f.sampleType f.bitsPerSample f.subSamplingW f.subSamplingH then
    none
  else
    let suf := suffix cfRGB f.colorFamily f.sampleType f.bitsPerSample
    if f.colorFamily = cfGray then
      some (snprintf 32 ("Gray".toList ++ suf))
    else if f.colorFamily = cfRGB then
      some (snprintf 32 ("RGB".toList ++ suf))
    else if f.colorFamily = cfYUV then
      some (yuvFormatName f.subSamplingW f.subSamplingH suf)
    else
      some (snprintf 32 "Undefined".toList)

/-- `VSCore::getAudioFormatName`, src/core/vscore.cpp:1709-1718. -/
def getAudioFormatName (f : AFmt) : Option (List Char) :=
  if !isValidAudioFormat f.sampleType f.bitsPerSample f.channelLayout then
    none
  else if f.sampleType = stFloat then
    some (snprintf 32 ("Audio".toList ++ fmtD f.bitsPerSample ++ "F (".toList ++ fmtD f.numChannels ++
      " CH)".toList))
  else
    some (snprintf 32 ("Audio".toList ++ fmtD f.bitsPerSample ++ " (".toList ++ fmtD f.numChannels ++
      " CH)".toList))

/-! ## The registry of version 3 formats -/

/-- `vs3::VSColorFamily`, src/core/VapourSynth3.h:38-46. -/
def cmGray : Int := 1000000
/-- src/core/VapourSynth3.h:41. -/
def cmRGB : Int := 2000000
/-- src/core/VapourSynth3.h:42. -/
def cmYUV : Int := 3000000
/-- src/core/VapourSynth3.h:43. -/
def cmYCoCg : Int := 4000000
/-- src/core/VapourSynth3.h:45. -/
def cmCompat : Int := 9000000
/-- `pfCompatBGR32`, src/core/VapourSynth3.h:98. -/
def pfCompatBGR32 : Int := cmCompat + 10
/-- `pfCompatYUY2`, src/core/VapourSynth3.h:99. -/
def pfCompatYUY2 : Int := cmCompat + 11

/-- `vs3::VSVideoFormat`, src/core/VapourSynth3.h:109-121. -/
structure V3Fmt where
  name : List Char
  id : Int
  colorFamily : Int
  sampleType : Int
  bitsPerSample : Int
  bytesPerSample : Int
  subSamplingW : Int
  subSamplingH : Int
  numPlanes : Int
  deriving DecidableEq, Repr

/-- `VSCore::videoFormats` and `videoFormatIdOffset`, src/core/vscore.h:1146-1148.  The map is the
list of its entries in key order. -/
structure Reg where
  formats : List (Int × V3Fmt)
  offset : Int

/-- `std::map::find`. -/
def find (l : List (Int × V3Fmt)) (id : Int) : Option V3Fmt :=
  match l with
  | [] => none
  | (k, f) :: t => if k = id then some f else find t id

/-- `std::map::insert`: an entry with the same key stays. -/
def insert (l : List (Int × V3Fmt)) (id : Int) (f : V3Fmt) : List (Int × V3Fmt) :=
  match l with
  | [] => [(id, f)]
  | (k, g) :: t =>
    if k = id then (k, g) :: t
    else if id < k then (id, f) :: (k, g) :: t
    else (k, g) :: insert t id f

/-- The search of `queryVideoFormat3`, src/core/vscore.cpp:1334-1340. -/
def search (l : List (Int × V3Fmt)) (colorFamily sampleType bitsPerSample subSamplingW subSamplingH : Int) :
    Option V3Fmt :=
  match l with
  | [] => none
  | (_, f) :: t =>
    if f.colorFamily = colorFamily ∧ f.sampleType = sampleType ∧ f.subSamplingW = subSamplingW ∧
        f.subSamplingH = subSamplingH ∧ f.bitsPerSample = bitsPerSample then
      some f
    else search t colorFamily sampleType bitsPerSample subSamplingW subSamplingH

/-- The name given to a new version 3 format, src/core/vscore.cpp:1344-1385. -/
def v3Name (name : Option (List Char)) (colorFamily sampleType bitsPerSample subSamplingW subSamplingH : Int) :
    List Char :=
  match name with
  | some n => n
  | none =>
    let suf := suffix cmRGB colorFamily sampleType bitsPerSample
    if colorFamily = cmGray then
      snprintf 32 ("Gray".toList ++ suf)
    else if colorFamily = cmRGB then
      snprintf 32 ("RGB".toList ++ suf)
    else if colorFamily = cmYUV then
      yuvFormatName subSamplingW subSamplingH suf
    else if colorFamily = cmYCoCg then
      snprintf 32 ("YCoCgssw".toList ++ fmtD subSamplingW ++ "ssh".toList ++ fmtD subSamplingH ++
        "P".toList ++ suf)
    else
      []

/-- The identifier given to a new version 3 format and the new counter, src/core/vscore.cpp:1387-1390. -/
def newId (r : Reg) (id colorFamily : Int) : Res (Int × Int) :=
  if id ≠ 0 then .ok (id, r.offset)
  else do
    let i ← i32 (colorFamily + r.offset)
    let o ← i32 (r.offset + 1)
    .ok (i, o)

/-- `VSCore::queryVideoFormat3`, src/core/vscore.cpp:1313-1406: the registry afterwards and the format
the returned pointer points to, if it is not null. -/
def queryVideoFormat3 (r : Reg) (colorFamily sampleType bitsPerSample subSamplingW subSamplingH : Int)
    (name : Option (List Char)) (id : Int) : Res (Reg × Option V3Fmt) :=
  if subSamplingH < 0 ∨ subSamplingW < 0 ∨ subSamplingH > 4 ∨ subSamplingW > 4 then
    .ok (r, none)
  else if sampleType < 0 ∨ sampleType > 1 then
    .ok (r, none)
  else if colorFamily = cmRGB ∧ (subSamplingH ≠ 0 ∨ subSamplingW ≠ 0) then
    .ok (r, none)
  else if sampleType = stFloat ∧ (bitsPerSample ≠ 16 ∧ bitsPerSample ≠ 32) then
    .ok (r, none)
  else if bitsPerSample < 8 ∨ bitsPerSample > 32 then
    .ok (r, none)
  else if colorFamily = cmCompat ∧ name = none then
    .ok (r, none)
  else
    match search r.formats colorFamily sampleType bitsPerSample subSamplingW subSamplingH with
    | some f => .ok (r, some f)
    | none => do
      let p ← newId r id colorFamily
      let f : V3Fmt := {
        name := v3Name name colorFamily sampleType bitsPerSample subSamplingW subSamplingH
        id := p.1
        colorFamily := colorFamily
        sampleType := sampleType
        bitsPerSample := bitsPerSample
        bytesPerSample := bytesLoop 31 1 bitsPerSample
        subSamplingW := subSamplingW
        subSamplingH := subSamplingH
        numPlanes := if colorFamily = cmGray ∨ colorFamily = cmCompat then 1 else 3 }
      let l := insert r.formats p.1 f
      .ok (⟨l, p.2⟩, find l p.1)

/-- One line of `registerFormats`. -/
structure Known where
  colorFamily : Int
  sampleType : Int
  bitsPerSample : Int
  subSamplingW : Int
  subSamplingH : Int
  name : List Char
  id : Int

/-- The lines of `VSCore::registerFormats`, src/core/vscore.cpp:1793-1841, with the identifiers of
`VSPresetFormat`, src/core/VapourSynth3.h:49-100. -/
def known : List Known := [
  ⟨cmGray, stInteger, 8, 0, 0, "Gray8".toList, cmGray + 10⟩,
  ⟨cmGray, stInteger, 16, 0, 0, "Gray16".toList, cmGray + 11⟩,
  ⟨cmGray, stFloat, 16, 0, 0, "GrayH".toList, cmGray + 12⟩,
  ⟨cmGray, stFloat, 32, 0, 0, "GrayS".toList, cmGray + 13⟩,
  ⟨cmYUV, stInteger, 8, 1, 1, "YUV420P8".toList, cmYUV + 10⟩,
  ⟨cmYUV, stInteger, 8, 1, 0, "YUV422P8".toList, cmYUV + 11⟩,
  ⟨cmYUV, stInteger, 8, 0, 0, "YUV444P8".toList, cmYUV + 12⟩,
  ⟨cmYUV, stInteger, 8, 2, 2, "YUV410P8".toList, cmYUV + 13⟩,
  ⟨cmYUV, stInteger, 8, 2, 0, "YUV411P8".toList, cmYUV + 14⟩,
  ⟨cmYUV, stInteger, 8, 0, 1, "YUV440P8".toList, cmYUV + 15⟩,
  ⟨cmYUV, stInteger, 9, 1, 1, "YUV420P9".toList, cmYUV + 16⟩,
  ⟨cmYUV, stInteger, 9, 1, 0, "YUV422P9".toList, cmYUV + 17⟩,
  ⟨cmYUV, stInteger, 9, 0, 0, "YUV444P9".toList, cmYUV + 18⟩,
  ⟨cmYUV, stInteger, 10, 1, 1, "YUV420P10".toList, cmYUV + 19⟩,
  ⟨cmYUV, stInteger, 10, 1, 0, "YUV422P10".toList, cmYUV + 20⟩,
  ⟨cmYUV, stInteger, 10, 0, 0, "YUV444P10".toList, cmYUV + 21⟩,
  ⟨cmYUV, stInteger, 12, 1, 1, "YUV420P12".toList, cmYUV + 27⟩,
  ⟨cmYUV, stInteger, 12, 1, 0, "YUV422P12".toList, cmYUV + 28⟩,
  ⟨cmYUV, stInteger, 12, 0, 0, "YUV444P12".toList, cmYUV + 29⟩,
  ⟨cmYUV, stInteger, 14, 1, 1, "YUV420P14".toList, cmYUV + 30⟩,
  ⟨cmYUV, stInteger, 14, 1, 0, "YUV422P14".toList, cmYUV + 31⟩,
  ⟨cmYUV, stInteger, 14, 0, 0, "YUV444P14".toList, cmYUV + 32⟩,
  ⟨cmYUV, stInteger, 16, 1, 1, "YUV420P16".toList, cmYUV + 22⟩,
  ⟨cmYUV, stInteger, 16, 1, 0, "YUV422P16".toList, cmYUV + 23⟩,
  ⟨cmYUV, stInteger, 16, 0, 0, "YUV444P16".toList, cmYUV + 24⟩,
  ⟨cmYUV, stFloat, 16, 0, 0, "YUV444PH".toList, cmYUV + 25⟩,
  ⟨cmYUV, stFloat, 32, 0, 0, "YUV444PS".toList, cmYUV + 26⟩,
  ⟨cmRGB, stInteger, 8, 0, 0, "RGB24".toList, cmRGB + 10⟩,
  ⟨cmRGB, stInteger, 9, 0, 0, "RGB27".toList, cmRGB + 11⟩,
  ⟨cmRGB, stInteger, 10, 0, 0, "RGB30".toList, cmRGB + 12⟩,
  ⟨cmRGB, stInteger, 16, 0, 0, "RGB48".toList, cmRGB + 13⟩,
  ⟨cmRGB, stFloat, 16, 0, 0, "RGBH".toList, cmRGB + 14⟩,
  ⟨cmRGB, stFloat, 32, 0, 0, "RGBS".toList, cmRGB + 15⟩,
  ⟨cmCompat, stInteger, 32, 0, 0, "CompatBGR32".toList, cmCompat + 10⟩,
  ⟨cmCompat, stInteger, 16, 1, 0, "CompatYUY2".toList, cmCompat + 11⟩]

/-- Register the lines one after the other. -/
def registerAll (r : Reg) : List Known → Res Reg
  | [] => .ok r
  | k :: t => do
    let p ← queryVideoFormat3 r k.colorFamily k.sampleType k.bitsPerSample k.subSamplingW
      k.subSamplingH (some k.name) k.id
    registerAll p.1 t

/-- The registry of a new core, src/core/vscore.cpp:2020, 2035. -/
def newReg : Res Reg := registerAll ⟨[], 1000⟩ known

/-- `VSCore::ColorFamilyFromV3`, src/core/vscore.cpp:1620-1632 (assertions are off). -/
def colorFamilyFromV3 (colorFamily : Int) : Int :=
  if colorFamily = cmGray then cfGray
  else if colorFamily = cmYUV ∨ colorFamily = cmYCoCg then cfYUV
  else if colorFamily = cmRGB then cfRGB
  else cfGray

/-- `VSCore::ColorFamilyToV3`, src/core/vscore.cpp:1634-1645 (assertions are off). -/
def colorFamilyToV3 (colorFamily : Int) : Int :=
  if colorFamily = cfGray then cmGray
  else if colorFamily = cfYUV then cmYUV
  else if colorFamily = cfRGB then cmRGB
  else cmGray

/-- `VSCore::VideoFormatToV3`, src/core/vscore.cpp:1647-1652. -/
def videoFormatToV3 (r : Reg) (f : VFmt) : Res (Reg × Option V3Fmt) :=
  if f.colorFamily = cfUndefined then
    .ok (r, none)
  else
    queryVideoFormat3 r (colorFamilyToV3 f.colorFamily) f.sampleType f.bitsPerSample f.subSamplingW
      f.subSamplingH none 0

/-- `VSCore::VideoFormatFromV3`, src/core/vscore.cpp:1654-1659. -/
def videoFormatFromV3 (f : Option V3Fmt) : Bool × VFmt :=
  match f with
  | none => queryVideoFormat cfUndefined stInteger 0 0 0
  | some f =>
    if f.id = pfCompatBGR32 ∨ f.id = pfCompatYUY2 then
      queryVideoFormat cfUndefined stInteger 0 0 0
    else
      queryVideoFormat (colorFamilyFromV3 f.colorFamily) f.sampleType f.bitsPerSample f.subSamplingW
        f.subSamplingH

/-- `VSCore::getV3VideoFormat`, src/core/vscore.cpp:1256-1264. -/
def getV3VideoFormat (r : Reg) (id : Int) : Option V3Fmt := find r.formats id

/-- Is the identifier one of version 3?  `(id & 0xFF000000) == 0 && (id & 0x00FFFFFF)`,
src/core/vscore.cpp:1268 and 1300. -/
def isV3Id (id : Nat) : Bool := (id &&& 0xFF000000) == 0 && (id &&& 0x00FFFFFF) != 0

/-- `VSCore::getVideoFormatByID`, src/core/vscore.cpp:1298-1305. -/
def getVideoFormatByID (r : Reg) (id : Nat) : Bool × VFmt :=
  if isV3Id id then
    videoFormatFromV3 (getV3VideoFormat r id)
  else
    queryVideoFormat ((id >>> 28) &&& 0xF : Nat) ((id >>> 24) &&& 0xF : Nat) ((id >>> 16) &&& 0xFF : Nat)
      ((id >>> 8) &&& 0xFF : Nat) ((id >>> 0) &&& 0xFF : Nat)

/-- `VSCore::getVideoFormat3`, src/core/vscore.cpp:1267-1273, behind `getFormatPreset` of version 3
(src/core/vsapi.cpp:49-52).  The identifier is the bit pattern of the `int`. -/
def getVideoFormat3 (r : Reg) (id : Nat) : Res (Reg × Option V3Fmt) :=
  if isV3Id id then
    .ok (r, getV3VideoFormat r id)
  else
    queryVideoFormat3 r (colorFamilyToV3 ((id >>> 28) &&& 0xF : Nat)) ((id >>> 24) &&& 0xF : Nat)
      ((id >>> 16) &&& 0xFF : Nat) ((id >>> 8) &&& 0xFF : Nat) ((id >>> 0) &&& 0xFF : Nat) none 0

/-- The calls that can change the registry after the core has been made. -/
inductive Call where
  /-- `registerFormat` of version 3, src/core/vsapi.cpp:54-57. -/
  | register (colorFamily sampleType bitsPerSample subSamplingW subSamplingH : Int)
  /-- `getFormatPreset` of version 3, src/core/vsapi.cpp:49-52. -/
  | preset (id : Nat)
  /-- Handing a format to a program that uses version 3, src/core/vscore.cpp:357 and 1663. -/
  | toV3 (f : VFmt)

/-- One call: the registry afterwards and the format returned, if any. -/
def call (r : Reg) : Call → Res (Reg × Option V3Fmt)
  | .register c t b w h => queryVideoFormat3 r c t b w h none 0
  | .preset id => getVideoFormat3 r id
  | .toV3 f => videoFormatToV3 r f

/-- A history of calls: the registry at the end and the formats returned. -/
def run (r : Reg) : List Call → Res (Reg × List (Option V3Fmt))
  | [] => .ok (r, [])
  | c :: t => do
    let p ← call r c
    let q ← run p.1 t
    .ok (q.1, p.2 :: q.2)

end VS.Format
