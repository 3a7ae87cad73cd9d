import Verif.Map.Model
import Verif.Json.Spec

/-!
# How vspipe writes frame properties

`src/vspipe/vsjson.cpp`, on top of the model of property maps.  Texts are lists of bytes.
-/

namespace VS.Json
open VS VS.Map

/-- The bytes of an ASCII text. -/
def asc (s : String) : List Nat := s.toList.map Char.toNat

/-- `hex[n]`, vsjson.cpp:56-60. -/
def hexChar (n : Nat) : Nat := if n < 10 then 48 + n else 87 + n

/-- One byte in `escapeJSONString`, vsjson.cpp:40-62. -/
def escByte (c : Nat) : List Nat :=
  if c = 92 then [92, 92]
  else if c = 8 then [92, 98]
  else if c = 12 then [92, 102]
  else if c = 10 then [92, 110]
  else if c = 13 then [92, 114]
  else if c = 9 then [92, 116]
  else if c = 34 then [92, 34]
  else if c < 32 then [92, 117, 48, 48, hexChar (c / 16 % 16), hexChar (c % 16)]
  else [c]

/-- `escapeJSONString`, vsjson.cpp:37-65. -/
def escapeString (s : List Nat) : List Nat := 34 :: s.flatMap escByte ++ [34]

/-- `isAsciiPrintable`, vsjson.cpp:24-29; bytes from 128 on are negative or above 126. -/
def isAsciiPrintable (s : List Nat) : Bool := s.all (fun c => 32 ≤ c && c ≤ 126)

/-- The decimal digits of a number. -/
def dec (n : Nat) : List Nat := if n < 10 then [48 + n] else dec (n / 10) ++ [48 + n % 10]

/-- `std::to_string` of an integer. -/
def decimal (i : Int) : List Nat := (if i < 0 then [45] else []) ++ dec i.natAbs

/-- `doubleToString`, vsjson.cpp:31-35.  `fixed` is the text `std::to_chars` has to produce.  If it has more characters
than the buffer the call fails, its result is not looked at, and the buffer has unspecified contents. -/
def doubleToString (fixed : Nat → List Nat) (bits : Nat) : Res (List Nat) :=
  if (fixed bits).length ≤ 100 then .ok (fixed bits) else .ub

/-- What is written for a byte string, vsjson.cpp:95-100: `escapeJSONString` is called with a `const char *`, so the
string ends at the first zero.  `dtUnknown` is -1 and `dtUtf8` is 1. -/
def dataText (hint : Int) (b : List Nat) : List Nat :=
  if hint = 1 ∨ (hint = -1 ∧ b.length < 200 ∧ isAsciiPrintable b = true) then escapeString (b.takeWhile (· ≠ 0))
  else asc "\"[binary data size: " ++ dec b.length ++ asc "]\""

/-- One element, vsjson.cpp:84-102; for other types nothing is written. -/
def elemText (fixed : Nat → List Nat) (w : World) (m : Nat) (k : Key) (ty : PType) (j : Nat) : Res (List Nat) :=
  match ty with
  | .int => do
    let r ← mapGetInt w m k j false
    .ok (decimal r.1)
  | .float => do
    let r ← mapGetFloat w m k j false
    doubleToString fixed r.1
  | .data => do
    let r ← mapGetData w m k j false
    match r.1 with
    | some (h, b) => .ok (dataText h b)
    | none => .ub
  | _ => .ok []

/-- The loops over the elements with commas between them. -/
def elemsText (fixed : Nat → List Nat) (w : World) (m : Nat) (k : Key) (ty : PType) : Nat → Nat → Res (List Nat)
  | _, 0 => .ok []
  | j, n + 1 => do
    let a ← elemText fixed w m k ty j
    let r ← elemsText fixed w m k ty (j + 1) n
    .ok ((if j = 0 then [] else asc ", ") ++ a ++ r)

/-- The `switch` on the type, vsjson.cpp:84-103: the loops run for three types only. -/
def switchText (fixed : Nat → List Nat) (w : World) (m : Nat) (k : Key) (ty : PType) (n : Nat) : Res (List Nat) :=
  match ty with
  | .int | .float | .data => elemsText fixed w m k ty 0 n
  | _ => .ok []

/-- The value of one key, vsjson.cpp:72 and 78-107. -/
def valueText (fixed : Nat → List Nat) (w : World) (m : Nat) (k : Key) : Res (List Nat) := do
  let n ← mapNumElements w m k
  if n = 0 then .ok (asc "null")
  else do
    let ty ← mapGetType w m k
    let t ← switchText fixed w m k ty n.toNat
    .ok (if 1 < n then asc "[" ++ t ++ asc "]" else t)

/-- The loop over the keys, vsjson.cpp:70-108. -/
def keysText (fixed : Nat → List Nat) (w : World) (m : Nat) : Nat → Nat → Res (List Nat)
  | _, 0 => .ok []
  | i, n + 1 => do
    let k ← mapGetKey w m i
    match k with
    | none => .ub
    | some k => do
      let v ← valueText fixed w m k
      let r ← keysText fixed w m (i + 1) n
      .ok ((if i = 0 then [] else asc ", ") ++ escapeString (keyBytes k) ++ asc ": " ++ v ++ r)

/-- `convertVSMapToJSON`, vsjson.cpp:67-111. -/
def convertMap (fixed : Nat → List Nat) (w : World) (m : Nat) : Res (List Nat) := do
  let n ← mapNumKeys w m
  let t ← keysText fixed w m 0 n
  .ok (asc "{" ++ t ++ asc "}")

/-- The line of frame `i` of `n`, src/vspipe/vspipe.cpp:395-396; the text is passed as a C string. -/
def frameLine (i n : Nat) (t : List Nat) : List Nat :=
  asc "\t" ++ t.takeWhile (· ≠ 0) ++ (if n ≠ i + 1 then asc "," else []) ++ asc "\n"

/-- The lines of all frames, in the order of C39. -/
def frameLines (n : Nat) : Nat → List (List Nat) → List Nat
  | _, [] => []
  | i, t :: l => frameLine i n t ++ frameLines n (i + 1) l

/-- The file written by `--json` for a clip without errors: the brackets are written by
`initializeVideoOutput`, src/vspipe/vspipe.cpp:525-530, and `finalizeVideoOutput`, 536-545, that is for video only. -/
def fileText (video : Bool) (l : List (List Nat)) : List Nat :=
  (if video then asc "[\n" else []) ++ frameLines l.length 0 l ++ (if video then asc "]\n" else [])

/-- The texts of the properties of some frames. -/
def convertMaps (fixed : Nat → List Nat) (w : World) : List Nat → Res (List (List Nat))
  | [] => .ok []
  | m :: ms => do
    let t ← convertMap fixed w m
    let ts ← convertMaps fixed w ms
    .ok (t :: ts)

/-- The file for frames with the properties `ms`. -/
def writeFile (fixed : Nat → List Nat) (w : World) (video : Bool) (ms : List Nat) : Res (List Nat) := do
  let ts ← convertMaps fixed w ms
  .ok (fileText video ts)

end VS.Json
