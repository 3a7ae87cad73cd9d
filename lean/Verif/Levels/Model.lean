import Verif.Generic.ConvModel

/-!
# Levels

Model of Levels in src/core/genericfilters.cpp.
-/

namespace VS.Levels
open VS VS.Format VS.Map VS.Map.Spec VS.Pix VS.Point VS.Pixel VS.Generic

/-- Floating point arithmetic, with powers. -/
structure LFloats extends Generic.Floats where
  /-- `std::pow` in single precision; an exponent that is nothing is infinite -/
  pow : Rat → Option Rat → Rat
  /-- C17, F.10.4.4: the exponents are positive -/
  pow_zero : ∀ g, pow 0 g = 0
  /-- C17, F.10.4.4 -/
  pow_one : ∀ g, pow 1 g = 1
  /-- the exponent 1 -/
  pow_id : ∀ x, pow x (some 1) = x
  /-- Levels for float samples: `min_in`, `max_in`, `min_out`, `max_out`, the inverse of `gamma` and a sample -/
  levelsF : Kind → Rat → Rat → Rat → Rat → Option Rat → Nat → Nat

variable (F : LFloats)

/-- The arguments of a plane; `gamma` is already inverted and nothing if it is infinite. -/
structure Lev where
  minIn : Rat
  maxIn : Rat
  minOut : Rat
  maxOut : Rat
  gamma : Option Rat

/-- The loop of `getPlaneFloatArgs`, genericfilters.cpp:94-104: for each plane the argument, nothing for the default. -/
def floatLoop : Nat → Option Nat → List Nat → List (Option Nat)
  | 0, _, _ => []
  | k + 1, prev, [] => prev :: floatLoop k prev []
  | k + 1, _, b :: t => some b :: floatLoop k (some b) t

/-- `getPlaneFloatArgs`, genericfilters.cpp:91-105. -/
def floatArgs (arg : String) (f : VFmt) (vals : List Nat) : Res (List (Option Nat)) :=
  if (vals.length : Int) > f.numPlanes then .err ("Levels: " ++ arg ++ " has more values specified than there are planes")
  else .ok (floatLoop 3 none vals)

/-- The number for a plane, nothing if it isn't finite. -/
def argVal (d : Rat) (e : Option Nat) : Option Rat :=
  match e with
  | none => some d
  | some b => single F.toFloats b

/-- The checks of a plane, genericfilters.cpp:1440-1446. -/
def levOne (minIn maxIn minOut maxOut gamma : Option Rat) : Res Lev :=
  match minIn, maxIn, minOut, maxOut with
  | some a, some b, some c, some d =>
    if b ≤ a then .err "Levels: max_in must be greater than min_in"
    else
      match gamma with
      | none => .err "Levels: gamma must be finite and positive"
      | some g => if g ≤ 0 then .err "Levels: gamma must be finite and positive" else .ok ⟨a, b, c, d, inverse F.toFloats g⟩
  | _, _, _, _ => .err "Levels: min_in, max_in, min_out and max_out must be finite"

/-- The checks of all planes, genericfilters.cpp:1437-1447. -/
def levArgs (process : List Bool) (args : Nat → Res Lev) : List Nat → Res (List (Option Lev))
  | [] => .ok []
  | p :: t =>
    if process.getD p false then do
      let l ← args p
      let r ← levArgs process args t
      .ok (some l :: r)
    else do
      let r ← levArgs process args t
      .ok (none :: r)

/-- An element of the table, genericfilters.cpp:1470 and 1474. `top` is `maxval`; the arguments are rounded integers. A range of the
output that is infinite gives NaN for 0, and the conversion of NaN to an integer is undefined. -/
def levEntry (top : Nat) (minIn maxIn minOut maxOut : Int) (gamma : Option Rat) (v : Nat) : Res Nat :=
  let a := max (F.rnd ((min (v : Int) maxIn - minIn : Int) : Rat)) 0
  let din := F.rnd ((maxIn - minIn : Int) : Rat)
  let x := if rabs din < 2 ^ 128 then F.rnd (a / din) else 0
  let y := F.pow x gamma
  let dout := F.rnd ((maxOut - minOut : Int) : Rat)
  if rabs dout < 2 ^ 128 then
    .ok (F.rnd (max (min (F.muladd y dout minOut) top) 0 + 1 / 2)).floor.toNat
  else if y = 0 then .ub
  else .ok (if 0 < dout then top else 0)

/-- The elements from `v` on. -/
def levEntries (top : Nat) (minIn maxIn minOut maxOut : Int) (gamma : Option Rat) : List Nat → Res (List Nat)
  | [] => .ok []
  | v :: t => do
    let e ← levEntry F top minIn maxIn minOut maxOut gamma v
    let r ← levEntries top minIn maxIn minOut maxOut gamma t
    .ok (e :: r)

/-- The table of a plane, genericfilters.cpp:1457-1476. -/
def levTable (top : Nat) (l : Lev) : Res (List Nat) :=
  let minIn := roundAway l.minIn
  let maxIn := roundAway l.maxIn
  if rabs (F.rnd ((maxIn - minIn : Int) : Rat)) < 1 / 2 ^ 23 then .err "Levels: max_in and min_in are too close"
  else levEntries F top minIn maxIn (roundAway l.minOut) (roundAway l.maxOut) l.gamma (List.range (top + 1))

/-- The tables of all planes, genericfilters.cpp:1453-1477. -/
def levTables (top : Nat) : List (Option Lev) → Res (List (List Nat))
  | [] => .ok []
  | none :: t => do
    let r ← levTables top t
    .ok ([] :: r)
  | some l :: t => do
    let e ← levTable F top l
    let r ← levTables top t
    .ok (e :: r)

/-- The result for a sample: `levelsGetframe`, genericfilters.cpp:1291, `levelsGetframeF`, 1337-1352, and `levelsGetframeH`, 1394-1409. -/
def levOp (tables : List (List Nat)) (levs : List (Option Lev)) (k : Kind) (f : VFmt) (p v : Nat) : Nat :=
  match k with
  | .byte => (tables.getD p []).getD (min v ((2 ^ f.bitsPerSample.toNat - 1) % 256)) 0
  | .word => (tables.getD p []).getD (min v ((2 ^ f.bitsPerSample.toNat - 1) % 65536)) 0
  | k =>
    match levs.getD p none with
    | some l => F.levelsF k l.minIn l.maxIn l.minOut l.maxOut l.gamma v
    | none => v

/-- `levelsGetframe`, genericfilters.cpp:1266-1305: the functions for the other kinds are alike. The function is chosen
by the format of the clip, which is that of the frame. -/
def levFilter (al : Nat) (vi : VInfo) (op : Kind → VFmt → Nat → Nat → Nat) (process : List Bool) : PFilter :=
  ⟨vi, fun n => [(0, n)], fun n get junk => do
    let src ← get 0 n
    let srcs := [0, 1, 2].map fun p : Nat => if process.getD p false then none else some (src, (p : Int))
    let dst ← newVideoFrameOpt al src.fmt src.width src.height srcs src.props junk
    dst.build fun p b => if process.getD p false then pixPlane al op src p b else .ok b⟩

/-- The largest value as default argument, genericfilters.cpp:1427-1429. -/
def maxDefault (f : VFmt) : Rat := if f.sampleType = stInteger then ((2 ^ f.bitsPerSample.toNat - 1 : Nat) : Rat) else 1

/-- The tables are only made for integers. -/
def tablesFor (f : VFmt) (levs : List (Option Lev)) : Res (List (List Nat)) :=
  if f.sampleType = stInteger then levTables F (2 ^ f.bitsPerSample.toNat - 1) levs else .ok []

/-- The arguments of a plane from the lists. -/
def levPlane (f : VFmt) (minIn maxIn minOut maxOut gamma : List (Option Nat)) (p : Nat) : Res Lev :=
  levOne F (argVal F 0 (minIn.getD p none)) (argVal F (maxDefault f) (maxIn.getD p none)) (argVal F 0 (minOut.getD p none))
    (argVal F (maxDefault f) (maxOut.getD p none)) (argVal F 1 (gamma.getD p none))

/-- `levelsCreate`, genericfilters.cpp:1421-1493. -/
def levelsCreate (al : Nat) (vi : VInfo) (planes : List Int) (minIn maxIn minOut maxOut gamma : List Nat) : Res Created :=
  if !is8to16orFloat vi.format then .err (badFormat "Levels")
  else do
    let process ← getPlanesArg "Levels" planes
    let a ← floatArgs "min_in" vi.format minIn
    let c ← floatArgs "min_out" vi.format minOut
    let b ← floatArgs "max_in" vi.format maxIn
    let d ← floatArgs "max_out" vi.format maxOut
    let g ← floatArgs "gamma" vi.format gamma
    let levs ← levArgs process (levPlane F vi.format a b c d g) (List.range vi.format.numPlanes.toNat)
    let tables ← tablesFor F vi.format levs
    create (levFilter al vi (levOp F tables levs) process)

end VS.Levels
