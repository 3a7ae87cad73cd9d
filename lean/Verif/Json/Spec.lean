/-!
# JSON

A reader for JSON texts (RFC 8259), independent of the code that writes them.  Texts and strings are lists of bytes; a
text has to be valid UTF-8, and strings are decoded to UTF-8.
-/

namespace VS.Json

/-- A number: sign, digits before the point, digits after it, exponent with its sign. -/
structure Num where
  neg : Bool
  int : Nat
  frac : List Nat
  exp : Option (Bool × Nat)
  deriving DecidableEq

inductive Json where
  | null
  | bool (b : Bool)
  | num (n : Num)
  | str (s : List Nat)
  | arr (l : List Json)
  | obj (l : List (List Nat × Json))

/-- The UTF-8 encoding of a code point. -/
def utf8 (c : Nat) : List Nat :=
  if c < 128 then [c]
  else if c < 2048 then [192 + c / 64, 128 + c % 64]
  else if c < 65536 then [224 + c / 4096, 128 + c / 64 % 64, 128 + c % 64]
  else [240 + c / 262144, 128 + c / 4096 % 64, 128 + c / 64 % 64, 128 + c % 64]

/-- Valid UTF-8: the encoding of some characters. -/
def IsUtf8 (s : List Nat) : Prop := ∃ cs : List Char, s = cs.flatMap (fun c => utf8 c.toNat)

/-- The bytes of a key. -/
def keyBytes (k : String) : List Nat := k.toList.flatMap (fun c => utf8 c.toNat)

def isWs (c : Nat) : Bool := c == 32 || c == 9 || c == 10 || c == 13

def skip (t : List Nat) : List Nat := t.dropWhile isWs

def isDigit (c : Nat) : Bool := 48 ≤ c && c ≤ 57

/-- The value of a list of decimal digits. -/
def digits (l : List Nat) : Nat := l.foldl (fun a c => a * 10 + (c - 48)) 0

/-- The text of a number without exponent, given by its sign and the digits before and after the point. -/
def numText (neg : Bool) (i f : List Nat) : List Nat :=
  (if neg then [45] else []) ++ i ++ (if f = [] then [] else 46 :: f)

/-- Are these the digits of a number?  Some digits, no superfluous leading zero. -/
def Digits (i f : List Nat) : Prop :=
  i ≠ [] ∧ (∀ c ∈ i, isDigit c = true) ∧ (∀ c ∈ f, isDigit c = true) ∧ (i.head? = some 48 → i = [48])

def hexDigit (c : Nat) : Option Nat :=
  if isDigit c then some (c - 48)
  else if 97 ≤ c && c ≤ 102 then some (c - 87)
  else if 65 ≤ c && c ≤ 70 then some (c - 55)
  else none

/-- Four hexadecimal digits. -/
def hex4 (t : List Nat) : Option (Nat × List Nat) :=
  match t with
  | a :: b :: c :: d :: r => do
    let a ← hexDigit a
    let b ← hexDigit b
    let c ← hexDigit c
    let d ← hexDigit d
    some (((a * 16 + b) * 16 + c) * 16 + d, r)
  | _ => none

/-- What follows a backslash. -/
def escape (t : List Nat) : Option (List Nat × List Nat) :=
  match t with
  | [] => none
  | c :: r =>
    if c = 34 || c = 92 || c = 47 then some ([c], r)
    else if c = 98 then some ([8], r)
    else if c = 102 then some ([12], r)
    else if c = 110 then some ([10], r)
    else if c = 114 then some ([13], r)
    else if c = 116 then some ([9], r)
    else if c = 117 then do
      let (x, r) ← hex4 r
      if x < 55296 || 57344 ≤ x then some (utf8 x, r)
      else if x < 56320 then
        match r with
        | 92 :: 117 :: r => do
          let (y, r) ← hex4 r
          if 56320 ≤ y && y < 57344 then some (utf8 (65536 + (x - 55296) * 1024 + (y - 56320)), r) else none
        | _ => none
      else none
    else none

def isCont (c : Nat) : Bool := 128 ≤ c && c < 192

/-- One character of more than one byte. -/
def multi (t : List Nat) : Option (List Nat × List Nat) :=
  match t with
  | a :: b :: r =>
    if 194 ≤ a && a < 224 then
      if isCont b then some ([a, b], r) else none
    else match r with
      | c :: r =>
        if 224 ≤ a && a < 240 then
          if isCont b && isCont c && (a != 224 || 160 ≤ b) && (a != 237 || b < 160) then some ([a, b, c], r) else none
        else match r with
          | d :: r =>
            if 240 ≤ a && a < 245 && isCont b && isCont c && isCont d && (a != 240 || 144 ≤ b) && (a != 244 || b < 144)
            then some ([a, b, c, d], r) else none
          | [] => none
      | [] => none
  | _ => none

/-- One character of a string or an escape sequence. -/
def item (t : List Nat) : Option (List Nat × List Nat) :=
  match t with
  | [] => none
  | c :: r =>
    if c = 92 then escape r
    else if c < 32 || c = 34 then none
    else if c < 128 then some ([c], r)
    else multi t

/-- The rest of a string after the opening quote. -/
def chars : Nat → List Nat → Option (List Nat × List Nat)
  | 0, _ => none
  | n + 1, t =>
    if t.head? = some 34 then some ([], t.tail)
    else do
      let (a, r) ← item t
      let (s, r) ← chars n r
      some (a ++ s, r)

def number (t : List Nat) : Option (Num × List Nat) :=
  let neg := t.head? == some 45
  let t := if neg then t.tail else t
  let i := t.takeWhile isDigit
  let t := t.dropWhile isDigit
  if i.isEmpty || (i.head? == some 48 && 1 < i.length) then none
  else
    let point := t.head? == some 46
    let f := if point then t.tail.takeWhile isDigit else []
    let t := if point then t.tail.dropWhile isDigit else t
    if point && f.isEmpty then none
    else if t.head? == some 101 || t.head? == some 69 then
      let t := t.tail
      let sign := t.head? == some 45 || t.head? == some 43
      let eneg := t.head? == some 45
      let t := if sign then t.tail else t
      let e := t.takeWhile isDigit
      if e.isEmpty then none
      else some (⟨neg, digits i, f, some (eneg, digits e)⟩, t.dropWhile isDigit)
    else some (⟨neg, digits i, f, none⟩, t)

/-- The literal `s` at the beginning. -/
def literal (s t : List Nat) (v : Json) : Option (Json × List Nat) :=
  if t.take s.length = s then some (v, t.drop s.length) else none

mutual

def value : Nat → List Nat → Option (Json × List Nat)
  | 0, _ => none
  | n + 1, t =>
    let t := skip t
    let c := t.head?
    let r := t.tail
    if c = some 123 then
      if (skip r).head? = some 125 then some (.obj [], (skip r).tail)
      else (members n r).map (fun p => (.obj p.1, p.2))
    else if c = some 91 then
      if (skip r).head? = some 93 then some (.arr [], (skip r).tail)
      else (elements n r).map (fun p => (.arr p.1, p.2))
    else if c = some 34 then (chars (r.length + 1) r).map (fun p => (.str p.1, p.2))
    else if c = some 110 then literal [110, 117, 108, 108] t .null
    else if c = some 116 then literal [116, 114, 117, 101] t (.bool true)
    else if c = some 102 then literal [102, 97, 108, 115, 101] t (.bool false)
    else (number t).map (fun p => (.num p.1, p.2))

/-- The elements of an array after the bracket. -/
def elements : Nat → List Nat → Option (List Json × List Nat)
  | 0, _ => none
  | n + 1, t => do
    let (v, r) ← value n t
    let r := skip r
    if r.head? = some 44 then do
      let (l, r) ← elements n r.tail
      some (v :: l, r)
    else if r.head? = some 93 then some ([v], r.tail)
    else none

/-- The members of an object after the brace. -/
def members : Nat → List Nat → Option (List (List Nat × Json) × List Nat)
  | 0, _ => none
  | n + 1, t => do
    let t := skip t
    if t.head? = some 34 then do
      let (k, r) ← chars (t.tail.length + 1) t.tail
      let r := skip r
      if r.head? = some 58 then do
        let (v, r) ← value n r.tail
        let r := skip r
        if r.head? = some 44 then do
          let (l, r) ← members n r.tail
          some ((k, v) :: l, r)
        else if r.head? = some 125 then some ([(k, v)], r.tail)
        else none
      else none
    else none

end

/-- Reads a whole text. -/
def parse (t : List Nat) : Option Json :=
  match value (2 * t.length + 1) t with
  | some (v, r) => if (skip r).isEmpty then some v else none
  | none => none

end VS.Json
