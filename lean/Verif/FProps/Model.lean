import Verif.Map.Model

/-!
# Filters that change frame properties

Model of SetFrameProp, SetFrameProps, RemoveFrameProps, SetFieldBased and CopyFrameProps,
src/core/simplefilters.cpp:2179-2539. Properties are the maps of `Verif/Map`, with their shared storage; every call is the
modelled public call.

Simplifications: only the properties of the frames are modelled, the planes are shared by `copyFrame`; frames are given by
the handle of their property map; whether the filter holds the last reference to a source frame is a parameter; reading
properties without an error pointer aborts, as in `Verif/Map`.
-/

namespace VS.FProps
open VS VS.Map

/-- `copyFrame`, src/core/vsapi.cpp:211-214: new properties are assigned those of the old frame,
src/core/vscore.cpp:313-334. -/
def copyFrame (w : World) (src : Nat) : Res (World × Nat) := do
  let p := mapCreate w
  let w ← mapAssign p.1 p.2 src
  .ok (w, p.2)

/-- `freeFrame`: the properties go away with the last reference. -/
def freeFrame (last : Bool) (w : World) (src : Nat) : Res World := if last then mapFree w src else .ok w

/-- The characters before the first zero, as `std::string(const char *)` sees them. -/
def cstr (s : String) : Key := String.ofList (s.toList.takeWhile (· ≠ '\x00'))

/-! ## SetFrameProp -/

/-- `SetFramePropDataExtra`, simplefilters.cpp:2182-2190; a string comes with its type hint. -/
structure SetProp where
  prop : Key
  ints : List Int
  floats : List Nat
  strings : List (Int × List Nat)
  deriving DecidableEq

/-- `mapNumElements` of an optional argument. -/
def num {α : Type} (a : Option (List α)) : Int :=
  match a with
  | some l => l.length
  | none => -1

/-- `(num > -1)`. -/
def given {α : Type} (a : Option (List α)) : Int := if num a > -1 then 1 else 0

/-- `setFramePropCreate`, simplefilters.cpp:2219-2263. -/
def setFramePropCreate (prop : String) (ints : Option (List Int)) (floats : Option (List Nat))
    (strings : Option (List (Int × List Nat))) : Res SetProp :=
  if given ints + given floats + given strings > 1 then
    .err "SetFrameProp: only one of 'intval', 'floatval', and 'data' can be passed."
  else if num ints + num floats + num strings = -3 then
    .err "SetFrameProp: one of 'intval', 'floatval', or 'data' must be passed."
  else if prop.toList.length = 0 then .err "SetFrameProp: 'prop' can't be an empty string."
  else if ints = some [] then .fatal "mapGetIntArray: out of bounds index"
  else if floats = some [] then .fatal "mapGetFloatArray: out of bounds index"
  else .ok ⟨cstr prop, ints.getD [], floats.getD [], strings.getD []⟩

/-- The loop over the strings, simplefilters.cpp:2208-2211; the memory behind `c_str()` ends with a zero. -/
def setStrings (w : World) (dst : Nat) (k : Key) : Nat → List (Int × List Nat) → Res World
  | _, [] => .ok w
  | i, (hint, b) :: t => do
    let r ← mapSetData w dst k (b ++ [0]) b.length hint (if i > 0 then 1 else 0)
    setStrings r.1 dst k (i + 1) t

/-- The branches of `setFramePropGetFrame`, simplefilters.cpp:2204-2211. -/
def setProp (d : SetProp) (w : World) (dst : Nat) : Res World :=
  if d.ints ≠ [] then do
    let r ← mapSetIntArray w dst d.prop d.ints d.ints.length
    .ok r.1
  else if d.floats ≠ [] then do
    let r ← mapSetFloatArray w dst d.prop d.floats d.floats.length
    .ok r.1
  else setStrings w dst d.prop 0 d.strings

/-- `setFramePropGetFrame`, simplefilters.cpp:2192-2217. -/
def setFrameProp (d : SetProp) (last : Bool) (w : World) (src : Nat) : Res (World × Nat) := do
  let r ← copyFrame w src
  let w ← freeFrame last r.1 src
  let w ← setProp d w r.2
  .ok (w, r.2)

/-! ## SetFrameProps -/

/-- `setFramePropsCreate`, simplefilters.cpp:2300-2312: the arguments without the clip. -/
def setFramePropsCreate (w : World) (args : Nat) : Res (World × Nat) := do
  let p := mapCreate w
  let w ← mapCopy p.1 p.2 args
  let r ← mapDeleteKey w p.2 "clip"
  .ok (r.1, p.2)

/-- `setFramePropsGetFrame`, simplefilters.cpp:2274-2292. -/
def setFrameProps (props : Nat) (last : Bool) (w : World) (src : Nat) : Res (World × Nat) := do
  let r ← copyFrame w src
  let w ← freeFrame last r.1 src
  let w ← mapCopy w r.2 props
  .ok (w, r.2)

/-! ## RemoveFrameProps -/

/-- The characters `globToRegex` escapes, simplefilters.cpp:2374-2375. -/
def special (c : Char) : Bool := ['.', '^', '$', '+', '(', ')', '[', ']', '{', '}', '|', '\\'].contains c

/-- The `switch` of `globToRegex`, simplefilters.cpp:2366-2383. -/
def globChar (c : Char) : List Char :=
  if c = '*' then ['(', '.', '*', ')']
  else if c = '?' then ['.']
  else if special c then ['\\', c]
  else [c]

/-- `globToRegex`, simplefilters.cpp:2364-2386. -/
def globToRegex (p : List Char) : List Char := '^' :: (p.flatMap globChar ++ ['$'])

/-- The atoms of the regular expressions that occur here. -/
inductive Atom where
  | bol | eol | any | anyStar
  | lit (c : Char)
  deriving DecidableEq, Repr

/-- The syntax characters of ECMAScript regular expressions. -/
def syntaxChar (c : Char) : Bool :=
  ['^', '$', '\\', '.', '*', '+', '?', '(', ')', '[', ']', '{', '}', '|'].contains c

/-- Reading a regular expression in ECMAScript syntax (`std::regex`), as far as needed here: assertions, the wildcard,
the group `(.*)`, escaped syntax characters and ordinary characters. Anything else is `none`. -/
def parseRegex : List Char → Option (List Atom)
  | [] => some []
  | '^' :: t => (parseRegex t).map (.bol :: ·)
  | '$' :: t => (parseRegex t).map (.eol :: ·)
  | '(' :: '.' :: '*' :: ')' :: t => (parseRegex t).map (.anyStar :: ·)
  | '.' :: t => (parseRegex t).map (.any :: ·)
  | '\\' :: c :: t => if syntaxChar c then (parseRegex t).map (.lit c :: ·) else none
  | c :: t => if syntaxChar c then none else (parseRegex t).map (.lit c :: ·)

/-- Line terminators are not matched by the wildcard. -/
def lineEnd (c : Char) : Bool := c = '\n' || c = '\r'

/-- `(.*)` tries every number of characters; `f` matches the rest. -/
def starMatch (f : List Char → Bool) : List Char → Bool
  | [] => f []
  | c :: t => f (c :: t) || (!lineEnd c && starMatch f t)

/-- Does a regular expression match a whole string (`std::regex_match`)? `start` says whether we are at its beginning. -/
def atoms : List Atom → Bool → List Char → Bool
  | [], _, s => s.isEmpty
  | .bol :: r, b, s => b && atoms r b s
  | .eol :: r, b, s => s.isEmpty && atoms r b s
  | .any :: r, _, s =>
    match s with
    | [] => false
    | c :: t => !lineEnd c && atoms r false t
  | .lit l :: r, _, s =>
    match s with
    | [] => false
    | c :: t => c == l && atoms r false t
  | .anyStar :: r, b, s => starMatch (fun t => atoms r (b && t.length == s.length) t) s

/-- `std::regex_match(key, regex)`; a regular expression that cannot be read throws. -/
def regexMatch (re : List Char) (s : Key) : Bool :=
  match parseRegex re with
  | some l => atoms l true s.toList
  | none => false

/-- `removeFramePropsCreate`, simplefilters.cpp:2388-2402: `none` stands for `all`; a regular expression that cannot be
read throws `std::regex_error`. -/
def removeFramePropsCreate : Option (List String) → Res (Option (List (List Char)))
  | none => .ok none
  | some l =>
    if l.all (fun p => (parseRegex (globToRegex (cstr p).toList)).isSome) then
      .ok (some (l.map fun p => globToRegex (cstr p).toList))
    else .fatal "std::regex_error"

/-- Does the key a pointer from `mapGetKey` points to still exist in storage `s`? -/
def keyAlive (w : World) (s : Nat) (k : Key) : Bool :=
  match w.stos.get s with
  | some st => (find st.data k).isSome
  | none => false

/-- `mapDeleteKey(props, key)`, vsapi.cpp:497-503, with a `key` that points into the map itself: the comparison with
`_ColorRange` reads it after the key has been erased. `s` is the storage the pointer was taken from. -/
def deleteByPtr (w : World) (m s : Nat) (k : Key) : Res World := do
  let r ← mapErase w m k
  if keyAlive r.1 s k then
    if k = "_ColorRange" then do
      let r ← mapErase r.1 m "_Range"
      .ok r.1
    else .ok r.1
  else .ub

/-- The same call if the freed memory still had its old contents. -/
def deleteByValue (w : World) (m _s : Nat) (k : Key) : Res World := do
  let r ← mapDeleteKey w m k
  .ok r.1

/-- The loop of `removeFramePropsGetFrame`, simplefilters.cpp:2341-2352; `del` is the call of `mapDeleteKey`. The first
argument bounds the number of turns. -/
def removeLoop (del : World → Nat → Nat → Key → Res World) (res : List (List Char)) (m : Nat) :
    Nat → World → Nat → Nat → Res World
  | 0, w, i, num => if i < num then .ub else .ok w
  | fuel + 1, w, i, num =>
    if i < num then do
      let s ← mapSto w m
      let k ← mapGetKey w m i
      match k with
      | none => .ub
      | some k =>
        if res.any (fun r => regexMatch r k) then do
          let w ← del w m s k
          let num ← mapNumKeys w m
          removeLoop del res m fuel w i num
        else removeLoop del res m fuel w (i + 1) num
    else .ok w

/-- The changes of `removeFramePropsGetFrame`, simplefilters.cpp:2336-2353. -/
def removeProps (del : World → Nat → Nat → Key → Res World) (d : Option (List (List Char))) (w : World) (dst : Nat) :
    Res World :=
  match d with
  | none => mapClear w dst
  | some res => do
    let n ← mapNumKeys w dst
    removeLoop del res dst n w 0 n

/-- `removeFramePropsGetFrame`, simplefilters.cpp:2324-2359. -/
def removeFramePropsBy (del : World → Nat → Nat → Key → Res World) (d : Option (List (List Char))) (last : Bool)
    (w : World) (src : Nat) : Res (World × Nat) := do
  let r ← copyFrame w src
  let w ← freeFrame last r.1 src
  let w ← removeProps del d w r.2
  .ok (w, r.2)

/-- `removeFramePropsGetFrame` as it is. -/
def removeFrameProps := removeFramePropsBy deleteByPtr

/-! ## SetFieldBased -/

/-- `setFieldBasedCreate`, simplefilters.cpp:2433-2446. -/
def setFieldBasedCreate (value : Int) : Res Int :=
  if value < 0 ∨ value > 2 then .err "SetFieldBased: value must be 0, 1 or 2" else .ok value

/-- `setFieldBasedGetFrame`, simplefilters.cpp:2413-2431. -/
def setFieldBased (value : Int) (last : Bool) (w : World) (src : Nat) : Res (World × Nat) := do
  let r ← copyFrame w src
  let w ← freeFrame last r.1 src
  let x ← mapDeleteKey w r.2 "_Field"
  let y ← mapSetInt x.1 r.2 "_FieldBased" value 0
  .ok (y.1, r.2)

/-! ## CopyFrameProps -/

/-- `copyFramePropsAllGetFrame`, simplefilters.cpp:2455-2474. -/
def copyFramePropsAll (last1 last2 : Bool) (w : World) (src1 src2 : Nat) : Res (World × Nat) := do
  let r ← copyFrame w src1
  let w ← mapClear r.1 r.2
  let w ← mapCopy w r.2 src2
  let w ← freeFrame last1 w src1
  let w ← freeFrame last2 w src2
  .ok (w, r.2)

/-- An integer array read from a map, as memory. -/
def intsOf (l : List Val) : List Int := l.map fun v => match v with | .int i => i | _ => 0

/-- A float array read from a map, as memory. -/
def floatsOf (l : List Val) : List Nat := l.map fun v => match v with | .float b => b | _ => 0

/-- `for (int i = 0; i < num; i++)`, from `i` on. -/
def forN (f : World → Int → Res World) : Nat → World → Nat → Res World
  | 0, w, _ => .ok w
  | n + 1, w, i => do
    let w ← f w i
    forN f n w (i + 1)

/-- Copy one string, simplefilters.cpp:2506. -/
def copyData (k : Key) (dst src : Nat) (w : World) (i : Int) : Res World := do
  let r ← mapGetData w src k i false
  match r.1 with
  | none => .ub
  | some (h, b) => do
    let x ← mapSetData w dst k (b ++ [0]) b.length h 1
    .ok x.1

/-- Copy one node, simplefilters.cpp:2509; `video` says whether a node is a video node. -/
def copyNode (video : Nat → Bool) (k : Key) (dst src : Nat) (w : World) (i : Int) : Res World := do
  let r ← mapGetNode w src k i false
  let x ← setObj2 w dst k (r.1.map fun p => (p, video p)) .videoNode .audioNode 1
  .ok x.1

/-- Copy one frame, simplefilters.cpp:2512; `video` says whether a frame is a video frame. -/
def copyFrameRef (video : Nat → Bool) (k : Key) (dst src : Nat) (w : World) (i : Int) : Res World := do
  let r ← mapGetFrame w src k i false
  let x ← setObj2 w dst k (r.1.map fun p => (p, video p)) .videoFrame .audioFrame 1
  .ok x.1

/-- Copy one function, simplefilters.cpp:2515. -/
def copyFunction (k : Key) (dst src : Nat) (w : World) (i : Int) : Res World := do
  let r ← mapGetFunction w src k i false
  let x ← mapSetFunction w dst k r.1 1
  .ok x.1

/-- Copy the values of a property with `num > 0` elements, simplefilters.cpp:2500-2516. -/
def copyValues (vn vf : Nat → Bool) (k : Key) (dst src : Nat) (w : World) (num : Int) (t : PType) : Res World :=
  match t with
  | .int => do
    let r ← mapGetIntArray w src k false
    let x ← mapSetIntArray w dst k (intsOf (r.1.getD [])) num
    .ok x.1
  | .float => do
    let r ← mapGetFloatArray w src k false
    let x ← mapSetFloatArray w dst k (floatsOf (r.1.getD [])) num
    .ok x.1
  | .data => forN (copyData k dst src) num.toNat w 0
  | .audioNode | .videoNode => forN (copyNode vn k dst src) num.toNat w 0
  | .audioFrame | .videoFrame => forN (copyFrameRef vf k dst src) num.toNat w 0
  | .function => forN (copyFunction k dst src) num.toNat w 0
  | .unset => .ok w

/-- One property, simplefilters.cpp:2491-2517. -/
def copyProp (vn vf : Nat → Bool) (dst src : Nat) (w : World) (k : Key) : Res World := do
  let r ← mapDeleteKey w dst k
  let num ← mapNumElements r.1 src k
  let t ← mapGetType r.1 src k
  if num = 0 then do
    let x ← mapSetEmpty r.1 dst k t.code
    .ok x.1
  else if num > 0 then copyValues vn vf k dst src r.1 num t
  else .ok r.1

/-- The loop over the properties, simplefilters.cpp:2490-2518. -/
def copyProps (vn vf : Nat → Bool) (dst src : Nat) : World → List Key → Res World
  | w, [] => .ok w
  | w, k :: t => do
    let w ← copyProp vn vf dst src w k
    copyProps vn vf dst src w t

/-- `copyFramePropsGetFrame`, simplefilters.cpp:2476-2525. -/
def copyFrameProps (vn vf : Nat → Bool) (props : List Key) (last1 last2 : Bool) (w : World) (src1 src2 : Nat) :
    Res (World × Nat) := do
  let r ← copyFrame w src1
  let w ← freeFrame last1 r.1 src1
  let w ← copyProps vn vf r.2 src2 w props
  let w ← freeFrame last2 w src2
  .ok (w, r.2)

/-- `copyFramePropsCreate`, simplefilters.cpp:2527-2539: without names all properties are copied. -/
def copyFramePropsFilter (vn vf : Nat → Bool) (props : List String) (last1 last2 : Bool) (w : World) (src1 src2 : Nat) :
    Res (World × Nat) :=
  if props = [] then copyFramePropsAll last1 last2 w src1 src2
  else copyFrameProps vn vf (props.map cstr) last1 last2 w src1 src2

end VS.FProps
