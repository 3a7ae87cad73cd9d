import Verif.Base.Heap

/-!
# Property maps

Model of `VSMap` with its shared, reference counted storage (src/core/vscore.h:125-378) and of
the map part of the public API (src/core/vsapi.cpp:244-252, 306-602, 604-680, 755-775, 872-926).

Object identity is explicit: arrays and storages live on a heap, maps are handles holding the
address of a storage, and every `add_ref`/`release` is performed.  Touching a deleted object is
`ub`.

Simplifications:
* calls are atomic, they are not interleaved with each other;
* `assert`s are compiled out, as in the release build the project uses (meson.build:2
  `b_ndebug=if-release`);
* doubles are opaque bit patterns, nodes, frames and functions opaque identities; the reference
  counts of those objects are not modelled, so `mapConsume*` equals `mapSet*`;
* arrays hold fewer than 2^31 elements, so `static_cast<int>(size)` is the size;
* a key argument is a Lean `String`; `<` on strings is the byte order of `std::map<std::string>`;
* allocation never fails.
-/

namespace VS.Map

/-- Keys of a map. -/
abbrev Key := String

/-- `VSPropertyType`, include/VapourSynth4.h:234-244. -/
inductive PType where
  | unset | int | float | data | function | videoNode | audioNode | videoFrame | audioFrame
  deriving DecidableEq, Repr

/-- Numeric values of `VSPropertyType`, include/VapourSynth4.h:234-244. -/
def PType.code : PType → Int
  | .unset => 0 | .int => 1 | .float => 2 | .data => 3 | .function => 4
  | .videoNode => 5 | .audioNode => 6 | .videoFrame => 7 | .audioFrame => 8

/-- An element of an array (`int64_t`, `double`, `VSMapData`, or a possibly null reference to a
node, frame or function), src/core/vscore.h:222-236. -/
inductive Val where
  | int (i : Int)
  | float (bits : Nat)
  | data (hint : Int) (bytes : List Nat)
  | obj (p : Option Nat)
  deriving DecidableEq, Repr

/-! ## Arrays -/

/-- `VSArray`, src/core/vscore.h:125-170: one element lives in `singleData`, several live in the
vector `data`.  `single = none` is the default constructed or moved-from value. -/
structure Arr where
  rc : Nat
  ty : PType
  fsize : Nat
  single : Option Val
  data : List Val
  deriving DecidableEq, Repr

/-- `VSArray()`, src/core/vscore.h:167. -/
def Arr.new (ty : PType) : Arr := ⟨1, ty, 0, none, []⟩

/-- `VSArray(const T *val, size_t count)`, src/core/vscore.h:177-185. -/
def Arr.ofList (ty : PType) (vals : List Val) : Arr :=
  ⟨1, ty, vals.length, if vals.length = 1 then vals.head? else none,
    if vals.length = 1 then [] else vals⟩

/-- `VSArray::copy`, src/core/vscore.h:169-175, 187-189. -/
def Arr.copy (x : Arr) : Arr :=
  ⟨1, x.ty, x.fsize, if x.fsize = 1 then x.single else none, if x.fsize > 1 then x.data else []⟩

/-- `VSArray::push_back`, src/core/vscore.h:198-211 (the reserved capacity is not modelled). -/
def Arr.push (x : Arr) (v : Val) : Res Arr :=
  if x.fsize = 0 then .ok { x with single := some v, fsize := 1 }
  else if x.fsize = 1 then
    match x.single with
    | some s => .ok { x with data := x.data ++ [s, v], single := none, fsize := 2 }
    | none => .ub
  else .ok { x with data := x.data ++ [v], fsize := x.fsize + 1 }

/-- `VSArray::at`, src/core/vscore.h:213-219; `std::vector::at` throws inside a `noexcept`
function when out of range. -/
def Arr.at (x : Arr) (pos : Nat) : Res Val :=
  if x.fsize = 1 then
    match x.single with
    | some s => .ok s
    | none => .ub
  else match x.data[pos]? with
    | some v => .ok v
    | none => .fatal "std::out_of_range"

/-- The elements reachable through `VSArray::getDataPointer`, src/core/vscore.h:191-196. -/
def Arr.dataPointer (x : Arr) : Res (List Val) :=
  if x.fsize = 1 then
    match x.single with
    | some s => .ok [s]
    | none => .ub
  else .ok x.data

/-! ## Storage and maps -/

/-- `VSMapStorage`, src/core/vscore.h:238-268; `data` is the `std::map`, an association list
sorted by key. -/
structure Sto where
  rc : Nat
  data : List (Key × Nat)
  error : Bool
  deriving DecidableEq, Repr

/-- All objects; `maps` are the `VSMap` objects, each holding the address of its storage. -/
structure World where
  arrs : Heap Arr
  stos : Heap Sto
  maps : Heap Nat
  deriving DecidableEq, Repr

/-- Before anything has been created. -/
def World.empty : World := ⟨[], [], []⟩

/-- `std::map::find`. -/
def find (l : List (Key × Nat)) (k : Key) : Option Nat :=
  match l with
  | [] => none
  | (k', a) :: t => if k' = k then some a else find t k

/-- `std::map::insert` or overwriting the value of an existing key. -/
def upsert (k : Key) (a : Nat) : List (Key × Nat) → List (Key × Nat)
  | [] => [(k, a)]
  | (k', a') :: t =>
    if k < k' then (k, a) :: (k', a') :: t
    else if k' = k then (k, a) :: t
    else (k', a') :: upsert k a t

/-- `std::map::erase`. -/
def eraseKey (k : Key) : List (Key × Nat) → List (Key × Nat)
  | [] => []
  | (k', a') :: t => if k' = k then t else (k', a') :: eraseKey k t

/-- Dereference an array pointer. -/
def getA (w : World) (a : Nat) : Res Arr :=
  match w.arrs.get a with
  | some x => .ok x
  | none => .ub

/-- Dereference a storage pointer. -/
def getS (w : World) (s : Nat) : Res Sto :=
  match w.stos.get s with
  | some x => .ok x
  | none => .ub

/-- The storage of a map handle; using a freed map is `ub`. -/
def mapSto (w : World) (m : Nat) : Res Nat :=
  match w.maps.get m with
  | some s => .ok s
  | none => .ub

/-- `VSArrayBase::add_ref`, src/core/vscore.h:144-146. -/
def addRefArr (w : World) (a : Nat) : Res World :=
  match w.arrs.get a with
  | some x => .ok { w with arrs := w.arrs.put a (some { x with rc := x.rc + 1 }) }
  | none => .ub

/-- `VSArrayBase::release`, src/core/vscore.h:148-152. -/
def releaseArr (w : World) (a : Nat) : Res World :=
  match w.arrs.get a with
  | some x =>
    if x.rc = 0 then .ub
    else if x.rc = 1 then .ok { w with arrs := w.arrs.put a none }
    else .ok { w with arrs := w.arrs.put a (some { x with rc := x.rc - 1 }) }
  | none => .ub

/-- Copying the pointers of a `std::map`. -/
def addRefs (w : World) : List Nat → Res World
  | [] => .ok w
  | a :: t => do
    let w ← addRefArr w a
    addRefs w t

/-- Destroying the pointers of a `std::map`. -/
def releases (w : World) : List Nat → Res World
  | [] => .ok w
  | a :: t => do
    let w ← releaseArr w a
    releases w t

/-- `new VSArray…`: the new object and its address. -/
def newArr (w : World) (x : Arr) : World × Nat :=
  ({ w with arrs := w.arrs.alloc x }, w.arrs.length)

/-- Overwrite a storage object. -/
def putS (w : World) (s : Nat) (st : Sto) : World := { w with stos := w.stos.put s (some st) }

/-- Overwrite an array object. -/
def putA (w : World) (a : Nat) (x : Arr) : World := { w with arrs := w.arrs.put a (some x) }

/-- Let a map point to a storage (`some`) or leave its pointer empty while it is being assigned
or destroyed (`none`). -/
def putM (w : World) (m : Nat) (v : Option Nat) : World := { w with maps := w.maps.put m v }

/-- `VSMapStorage::add_ref`, src/core/vscore.h:257-259. -/
def addRefSto (w : World) (s : Nat) : Res World := do
  let st ← getS w s
  .ok (putS w s { st with rc := st.rc + 1 })

/-- `VSMapStorage::release`, src/core/vscore.h:261-265; the destructor releases the arrays. -/
def releaseSto (w : World) (s : Nat) : Res World := do
  let st ← getS w s
  if st.rc = 0 then .ub
  else if st.rc = 1 then releases { w with stos := w.stos.put s none } (st.data.map (·.2))
  else .ok (putS w s { st with rc := st.rc - 1 })

/-- `new VSMapStorage(…)`, src/core/vscore.h:245-248; the address is the old heap size. -/
def newSto (w : World) (st : Sto) : World := { w with stos := w.stos.alloc st }

/-- The pointer of map `m` is moved from the storage `old` to the fresh storage `new`, and the
old one released (`data = new VSMapStorage…` through src/core/intrusive_ptr.h:64-67). -/
def switchSto (w : World) (m old new : Nat) : Res World :=
  releaseSto (putM w m (some new)) old

/-- `VSMap::detach()`, src/core/vscore.h:284-290. -/
def detach (w : World) (m : Nat) : Res World := do
  let s ← mapSto w m
  let st ← getS w s
  if st.rc = 1 then .ok w
  else do
    let w1 ← addRefs w (st.data.map (·.2))
    switchSto (newSto w1 ⟨1, st.data, st.error⟩) m s w1.stos.length

/-- `VSMap::find`, src/core/vscore.h:292-295. -/
def mapFind (w : World) (m : Nat) (k : Key) : Res (Option Nat) := do
  let s ← mapSto w m
  let st ← getS w s
  .ok (find st.data k)

/-- Make the array of a key unique to this storage, src/core/vscore.h:300-303. -/
def uniqueArr (w : World) (s : Nat) (st : Sto) (k : Key) (a : Nat) : Res (World × Nat) := do
  let x ← getA w a
  if x.rc = 1 then .ok (w, a)
  else do
    let p := newArr w x.copy
    let w2 ← releaseArr (putS p.1 s { st with data := upsert k p.2 st.data }) a
    .ok (w2, p.2)

/-- `VSMap::detach(key)`, src/core/vscore.h:297-306. -/
def detachKey (w : World) (m : Nat) (k : Key) : Res (World × Option Nat) := do
  let w ← detach w m
  let s ← mapSto w m
  let st ← getS w s
  match find st.data k with
  | some a => do
    let p ← uniqueArr w s st k a
    .ok (p.1, some p.2)
  | none => .ok (w, none)

/-- `VSMap::erase`, src/core/vscore.h:308-317. -/
def mapErase (w : World) (m : Nat) (k : Key) : Res (World × Bool) := do
  let f ← mapFind w m k
  match f with
  | none => .ok (w, false)
  | some _ => do
    let w ← detach w m
    let s ← mapSto w m
    let st ← getS w s
    match find st.data k with
    | none => .ub
    | some a => do
      let w ← releaseArr (putS w s { st with data := eraseKey k st.data }) a
      .ok (w, true)

/-- Store the pointer `a` under `k` in storage `s`, dropping what was there. -/
def storeKey (w : World) (s : Nat) (st : Sto) (k : Key) (a : Nat) : Res World :=
  match find st.data k with
  | some old => releaseArr (putS w s { st with data := upsert k a st.data }) old
  | none => .ok (putS w s { st with data := upsert k a st.data })

/-- `VSMap::insert`, src/core/vscore.h:319-327; the reference held by the caller moves into the
map. -/
def mapInsert (w : World) (m : Nat) (k : Key) (a : Nat) : Res World := do
  let w ← detach w m
  let s ← mapSto w m
  let st ← getS w s
  storeKey w s st k a

/-- The old array of a slot that is being assigned is released, src/core/intrusive_ptr.h:55-56;
the slot counts as empty until the new pointer is stored. -/
def dropKey (w : World) (s : Nat) (st : Sto) (k : Key) : Res World :=
  match find st.data k with
  | some old => releaseArr (putS w s { st with data := eraseKey k st.data }) old
  | none => .ok w

/-- One turn of the loop of `VSMap::copy`, src/core/vscore.h:334-335: the assignment first
releases the old array and then takes a reference to the new one
(src/core/intrusive_ptr.h:53-62). -/
def copyEntry (w : World) (s : Nat) (k : Key) (a : Nat) : Res World := do
  let st ← getS w s
  let w ← dropKey w s st k
  let w ← addRefArr w a
  let st ← getS w s
  .ok (putS w s { st with data := upsert k a st.data })

/-- The loop of `VSMap::copy`, src/core/vscore.h:334-335. -/
def copyLoop (w : World) (s : Nat) : List (Key × Nat) → Res World
  | [] => .ok w
  | (k, a) :: t => do
    let w ← copyEntry w s k a
    copyLoop w s t

/-- `VSMap::copy`, src/core/vscore.h:329-336. -/
def mapCopy (w : World) (dst src : Nat) : Res World :=
  if src = dst then .ok w
  else do
    let w ← detach w dst
    let ss ← mapSto w src
    let sst ← getS w ss
    let s ← mapSto w dst
    copyLoop w s sst.data

/-- `VSMap::clear`, src/core/vscore.h:342-347. -/
def mapClear (w : World) (m : Nat) : Res World := do
  let s ← mapSto w m
  let st ← getS w s
  if st.rc = 1 then releases (putS w s { st with data := [], error := false }) (st.data.map (·.2))
  else switchSto (newSto w ⟨1, [], false⟩) m s w.stos.length

/-- `VSMap::setError`, src/core/vscore.h:357-363. -/
def mapSetError (w : World) (m : Nat) (msg : List Nat) : Res World := do
  let w ← mapClear w m
  let x ← (Arr.new .data).push (.data 1 msg)
  let p := newArr w x
  let s ← mapSto p.1 m
  let st ← getS p.1 s
  .ok (putS p.1 s { st with data := upsert "_Error" p.2 st.data, error := true })

/-- `VSMap::getErrorMessage`, src/core/vscore.h:369-375; `std::map::at` throws inside a
`noexcept` function, reading another kind of array as data is undefined. -/
def mapGetError (w : World) (m : Nat) : Res (Option (List Nat)) := do
  let s ← mapSto w m
  let st ← getS w s
  if st.error then
    match find st.data "_Error" with
    | none => .fatal "std::out_of_range"
    | some a => do
      let x ← getA w a
      if x.ty = .data then do
        let v ← x.at 0
        match v with
        | .data _ b => .ok (some b)
        | _ => .ub
      else .ub
  else .ok none

/-- `VSMap(const VSMap *map)`, src/core/vscore.h:276-277, with a null argument (`createMap`,
src/core/vsapi.cpp:653-655). -/
def mapCreate (w : World) : World × Nat :=
  let w1 := newSto w ⟨1, [], false⟩
  ({ w1 with maps := w1.maps.alloc w.stos.length }, w1.maps.length)

/-- `VSMap(const VSMap *map)`, src/core/vscore.h:276-277: share the storage of `src`. -/
def mapClone (w : World) (src : Nat) : Res (World × Nat) := do
  let s ← mapSto w src
  let w ← addRefSto w s
  .ok ({ w with maps := w.maps.alloc s }, w.maps.length)

/-- `VSMap::operator=`, src/core/vscore.h:279-282 with the pointer assignment of
src/core/intrusive_ptr.h:53-62 (release first, then take the new reference). -/
def mapAssign (w : World) (dst src : Nat) : Res World :=
  if src = dst then .ok w
  else do
    let old ← mapSto w dst
    let w ← releaseSto (putM w dst none) old
    let s ← mapSto w src
    let w ← addRefSto w s
    .ok (putM w dst (some s))

/-- `freeMap`, src/core/vsapi.cpp:657-659. -/
def mapFree (w : World) (m : Nat) : Res World := do
  let s ← mapSto w m
  releaseSto (putM w m none) s

/-- `VSMap::size`, src/core/vscore.h:338-340, through `mapNumKeys`,
src/core/vsapi.cpp:306-309. -/
def mapNumKeys (w : World) (m : Nat) : Res Nat := do
  let s ← mapSto w m
  let st ← getS w s
  .ok st.data.length

/-- `VSMap::key`, src/core/vscore.h:349-355, through `mapGetKey`, src/core/vsapi.cpp:311-314;
a negative index becomes a huge `size_t`. -/
def mapGetKey (w : World) (m : Nat) (index : Int) : Res (Option Key) := do
  let s ← mapSto w m
  let st ← getS w s
  if index < 0 then .ok none
  else .ok ((st.data[index.toNat]?).map (·.1))

/-! ## The public calls -/

/-- `isAlphaUnderscore`, src/core/vsapi.cpp:505-507. -/
def isAlphaUnderscore (c : Char) : Bool :=
  ('a' ≤ c && c ≤ 'z') || ('A' ≤ c && c ≤ 'Z') || c = '_'

/-- `isAlphaNumUnderscore`, src/core/vsapi.cpp:509-511. -/
def isAlphaNumUnderscore (c : Char) : Bool :=
  ('a' ≤ c && c ≤ 'z') || ('A' ≤ c && c ≤ 'Z') || ('0' ≤ c && c ≤ '9') || c = '_'

/-- `isValidVSMapKey`, src/core/vsapi.cpp:513-525. -/
def isValidVSMapKey (s : Key) : Bool :=
  match s.toList with
  | [] => false
  | c :: t => isAlphaUnderscore c && t.all isAlphaNumUnderscore

/-- `remapColorRange`, src/core/vsapi.cpp:316-318. -/
def remapColorRange (k : Key) : Key := if k = "_ColorRange" then "_Range" else k

/-- `flipRangeProperty`, src/core/vsapi.cpp:397-404. -/
def flipRangeProperty (r : Int) : Int := if r = 0 then 1 else if r = 1 then 0 else r

/-- `mapNumElements`, src/core/vsapi.cpp:320-324. -/
def mapNumElements (w : World) (m : Nat) (k : Key) : Res Int := do
  let f ← mapFind w m (remapColorRange k)
  match f with
  | some a => do
    let x ← getA w a
    .ok (x.fsize : Int)
  | none => .ok (-1)

/-- `mapGetType`, src/core/vsapi.cpp:326-330. -/
def mapGetType (w : World) (m : Nat) (k : Key) : Res PType := do
  let f ← mapFind w m (remapColorRange k)
  match f with
  | some a => do
    let x ← getA w a
    .ok x.ty
  | none => .ok .unset

/-- peSuccess, include/VapourSynth4.h:247. -/
def peSuccess : Int := 0
/-- peUnset, include/VapourSynth4.h:248. -/
def peUnset : Int := 1
/-- peType, include/VapourSynth4.h:249. -/
def peType : Int := 2
/-- peError, include/VapourSynth4.h:251. -/
def peError : Int := 3
/-- peIndex, include/VapourSynth4.h:250. -/
def peIndex : Int := 4

/-- A failed read: report through the error pointer if there is one, abort otherwise
(src/core/vsapi.cpp:361-391). -/
def readFail {α : Type} (errPtr : Bool) (code : Int) (msg : String) : Res (Option α × Int) :=
  if errPtr then .ok (none, code) else .fatal msg

/-- `propGetShared`, src/core/vsapi.cpp:354-395. -/
def propGetShared (w : World) (m : Nat) (k : Key) (index : Int) (errPtr : Bool) (ty : PType) :
    Res (Option Arr × Int) := do
  let s ← mapSto w m
  let st ← getS w s
  if st.error then readFail errPtr peError "map with error set"
  else match find st.data k with
    | none => readFail errPtr peUnset "missing key"
    | some a => do
      let x ← getA w a
      if index < 0 ∨ index ≥ (x.fsize : Int) then readFail errPtr peIndex "out of bounds index"
      else if x.ty ≠ ty then readFail errPtr peType "wrong type"
      else .ok (some x, peSuccess)

/-- The common shape of the scalar getters: element `index` as found by `propGetShared`, or
nothing, together with the error code left in the error pointer. -/
def getElem (w : World) (m : Nat) (k : Key) (index : Int) (errPtr : Bool) (ty : PType) :
    Res (Option Val × Int) := do
  let r ← propGetShared w m k index errPtr ty
  match r.1 with
  | some x => do
    let v ← x.at index.toNat
    .ok (some v, r.2)
  | none => .ok (none, r.2)

/-- `mapGetInt`, src/core/vsapi.cpp:406-413. -/
def mapGetInt (w : World) (m : Nat) (k : Key) (index : Int) (errPtr : Bool) :
    Res (Int × Int) := do
  let r ← getElem w m (remapColorRange k) index errPtr .int
  match r.1 with
  | some (.int i) => .ok (if k = "_ColorRange" then flipRangeProperty i else i, r.2)
  | some _ => .ub
  | none => .ok (0, r.2)

/-- `mapGetIntSaturated`, src/core/vsapi.cpp:415-417. -/
def mapGetIntSaturated (w : World) (m : Nat) (k : Key) (index : Int) (errPtr : Bool) :
    Res (Int × Int) := do
  let r ← mapGetInt w m k index errPtr
  .ok (int64ToIntS r.1, r.2)

/-- `mapGetFloat`, src/core/vsapi.cpp:419-425; bit pattern 0 is `0.0`. -/
def mapGetFloat (w : World) (m : Nat) (k : Key) (index : Int) (errPtr : Bool) :
    Res (Nat × Int) := do
  let r ← getElem w m k index errPtr .float
  match r.1 with
  | some (.float b) => .ok (b, r.2)
  | some _ => .ub
  | none => .ok (0, r.2)

/-- `mapGetData`, `mapGetDataSize` and `mapGetDataTypeHint`, src/core/vsapi.cpp:431-453: the hint
and bytes of the element, `none` standing for a null pointer, size -1 and `dtUnknown`. -/
def mapGetData (w : World) (m : Nat) (k : Key) (index : Int) (errPtr : Bool) :
    Res (Option (Int × List Nat) × Int) := do
  let r ← getElem w m k index errPtr .data
  match r.1 with
  | some (.data h b) => .ok (some (h, b), r.2)
  | some _ => .ub
  | none => .ok (none, r.2)

/-- Taking a reference to the object an element points to; null is dereferenced,
src/core/vsapi.cpp:459-460. -/
def takeObj (v : Val) : Res Nat :=
  match v with
  | .obj (some p) => .ok p
  | _ => .ub

/-- `mapGetNode`/`mapGetFrame`, src/core/vsapi.cpp:455-495: try the video type silently, then the
audio type. -/
def getObj2 (w : World) (m : Nat) (k : Key) (index : Int) (errPtr : Bool) (tyV tyA : PType) :
    Res (Option Nat × Int) := do
  let r ← getElem w m k index true tyV
  match r.1 with
  | some v => do
    let p ← takeObj v
    .ok (some p, r.2)
  | none => do
    let r ← getElem w m k index errPtr tyA
    match r.1 with
    | some v => do
      let p ← takeObj v
      .ok (some p, r.2)
    | none => .ok (none, r.2)

/-- `mapGetNode`, src/core/vsapi.cpp:455-474. -/
def mapGetNode (w : World) (m : Nat) (k : Key) (index : Int) (errPtr : Bool) :
    Res (Option Nat × Int) := getObj2 w m k index errPtr .videoNode .audioNode

/-- `mapGetFrame`, src/core/vsapi.cpp:476-495. -/
def mapGetFrame (w : World) (m : Nat) (k : Key) (index : Int) (errPtr : Bool) :
    Res (Option Nat × Int) := getObj2 w m k index errPtr .videoFrame .audioFrame

/-- `mapGetFunction`, src/core/vsapi.cpp:759-768. -/
def mapGetFunction (w : World) (m : Nat) (k : Key) (index : Int) (errPtr : Bool) :
    Res (Option Nat × Int) := do
  let r ← getElem w m k index errPtr .function
  match r.1 with
  | some v => do
    let p ← takeObj v
    .ok (some p, r.2)
  | none => .ok (none, r.2)

/-- `mapGetIntArray`, src/core/vsapi.cpp:872-889: the elements readable through the returned
pointer, `none` for a null pointer. -/
def mapGetIntArray (w : World) (m : Nat) (k : Key) (errPtr : Bool) :
    Res (Option (List Val) × Int) := do
  let r ← propGetShared w m (remapColorRange k) 0 errPtr .int
  match r.1 with
  | some x =>
    if k = "_ColorRange" ∧ x.fsize = 1 then do
      let v ← x.at 0
      match v with
      | .int i => .ok (some [.int (if flipRangeProperty i = 1 then 1 else 0)], r.2)
      | _ => .ub
    else do
      let l ← x.dataPointer
      .ok (some l, r.2)
  | none => .ok (none, r.2)

/-- `mapGetFloatArray`, src/core/vsapi.cpp:891-898. -/
def mapGetFloatArray (w : World) (m : Nat) (k : Key) (errPtr : Bool) :
    Res (Option (List Val) × Int) := do
  let r ← propGetShared w m k 0 errPtr .float
  match r.1 with
  | some x => do
    let l ← x.dataPointer
    .ok (some l, r.2)
  | none => .ok (none, r.2)

/-- `mapDeleteKey`, src/core/vsapi.cpp:497-503. -/
def mapDeleteKey (w : World) (m : Nat) (k : Key) : Res (World × Bool) := do
  let r ← mapErase w m k
  if k = "_ColorRange" then do
    let r2 ← mapErase r.1 m "_Range"
    .ok (r2.1, r2.2 || r.2)
  else .ok r

/-- The property type a type code of `mapSetEmpty` denotes, src/core/vsapi.cpp:537-563. -/
def typeOfCode (c : Int) : Option PType :=
  if c = 1 then some .int else if c = 2 then some .float else if c = 3 then some .data
  else if c = 5 then some .videoNode else if c = 6 then some .audioNode
  else if c = 7 then some .videoFrame else if c = 8 then some .audioFrame
  else if c = 4 then some .function else none

/-- `mapSetEmpty`, src/core/vsapi.cpp:528-566; the result is the returned code. -/
def mapSetEmpty (w : World) (m : Nat) (k : Key) (type : Int) : Res (World × Int) :=
  if isValidVSMapKey k = false then .ok (w, 1)
  else do
    let sk := if type = 1 then remapColorRange k else k
    let f ← mapFind w m sk
    match f with
    | some _ => .ok (w, 1)
    | none =>
      match typeOfCode type with
      | none => .ok (w, 1)
      | some ty => do
        let p := newArr w (Arr.new ty)
        let w ← mapInsert p.1 m sk p.2
        .ok (w, 0)

/-- A new one element array stored under a key, src/core/vsapi.cpp:578-581, 591-594. -/
def insertSingle (w : World) (m : Nat) (k : Key) (v : Val) (ty : PType) : Res (World × Bool) := do
  let x ← (Arr.new ty).push v
  let p := newArr w x
  let w ← mapInsert p.1 m k p.2
  .ok (w, true)

/-- Append to the array of a key known to exist, src/core/vsapi.cpp:585-587. -/
def appendExisting (w : World) (m : Nat) (k : Key) (v : Val) : Res (World × Bool) := do
  let r ← detachKey w m k
  match r.2 with
  | none => .ub
  | some a => do
    let x ← getA r.1 a
    let x ← x.push v
    .ok (putA r.1 a x, true)

/-- `propSetShared`, src/core/vsapi.cpp:568-600: append modes are 0 = replace, 1 = append and
2 = touch (API 3). -/
def propSetShared (w : World) (m : Nat) (k : Key) (v : Val) (ty : PType) (append : Int) :
    Res (World × Bool) :=
  if append ≠ 0 ∧ append ≠ 1 ∧ append ≠ 2 then .fatal "Invalid prop append mode"
  else if isValidVSMapKey k = false then .ok (w, false)
  else if append = 0 then insertSingle w m k v ty
  else if append = 1 then do
    let f ← mapFind w m k
    match f with
    | some a => do
      let x ← getA w a
      if x.ty = ty then appendExisting w m k v
      else .ok (w, false)
    | none => insertSingle w m k v ty
  else do
    let r ← mapSetEmpty w m k ty.code
    .ok (r.1, r.2 == 0)

/-- The C result of the setters: 0 on success, 1 on failure, src/core/vsapi.cpp:605. -/
def setResult (r : Res (World × Bool)) : Res (World × Int) := do
  let r ← r
  .ok (r.1, if r.2 then 0 else 1)

/-- `mapSetInt`, src/core/vsapi.cpp:602-606. -/
def mapSetInt (w : World) (m : Nat) (k : Key) (i : Int) (append : Int) : Res (World × Int) :=
  setResult (propSetShared w m (remapColorRange k)
    (.int (if k = "_ColorRange" then flipRangeProperty i else i)) .int append)

/-- `mapSetFloat`, src/core/vsapi.cpp:608-610. -/
def mapSetFloat (w : World) (m : Nat) (k : Key) (bits : Nat) (append : Int) :
    Res (World × Int) :=
  setResult (propSetShared w m k (.float bits) .float append)

/-- `std::string(d, length)` or `std::string(d)`, src/core/vsapi.cpp:613; `d` is the memory
behind the pointer. -/
def stringOf (d : List Nat) (length : Int) : Res (List Nat) :=
  if length ≥ 0 then
    if length.toNat ≤ d.length then .ok (d.take length.toNat) else .ub
  else if 0 ∈ d then .ok (d.takeWhile (· ≠ 0)) else .ub

/-- `mapSetData`, src/core/vsapi.cpp:612-614. -/
def mapSetData (w : World) (m : Nat) (k : Key) (d : List Nat) (length hint append : Int) :
    Res (World × Int) := do
  let b ← stringOf d length
  setResult (propSetShared w m k (.data hint b) .data append)

/-- `mapSetNode`/`mapConsumeNode`/`mapSetFrame`/`mapConsumeFrame`, src/core/vsapi.cpp:620-646:
the argument is null or an object that is video (`true`) or audio (`false`). -/
def setObj2 (w : World) (m : Nat) (k : Key) (o : Option (Nat × Bool)) (tyV tyA : PType)
    (append : Int) : Res (World × Int) :=
  match o with
  | none => setResult (propSetShared w m k (.obj none) tyV append)
  | some (p, true) => setResult (propSetShared w m k (.obj (some p)) tyV append)
  | some (p, false) => setResult (propSetShared w m k (.obj (some p)) tyA append)

/-- `mapSetFunction`/`mapConsumeFunction`, src/core/vsapi.cpp:770-776. -/
def mapSetFunction (w : World) (m : Nat) (k : Key) (p : Option Nat) (append : Int) :
    Res (World × Int) :=
  setResult (propSetShared w m k (.obj p) .function append)

/-- `mapSetIntArray`, src/core/vsapi.cpp:900-917; `d` is the memory behind the pointer. -/
def mapSetIntArray (w : World) (m : Nat) (k : Key) (d : List Int) (size : Int) :
    Res (World × Int) :=
  if size < 0 then .ok (w, 1)
  else if isValidVSMapKey k = false then .ok (w, 1)
  else if size.toNat > d.length then .ub
  else do
    let l := (d.take size.toNat).map fun i =>
      Val.int (if k = "_ColorRange" then flipRangeProperty i else i)
    let p := newArr w (Arr.ofList .int l)
    let w ← mapInsert p.1 m (remapColorRange k) p.2
    .ok (w, 0)

/-- `mapSetFloatArray`, src/core/vsapi.cpp:919-927. -/
def mapSetFloatArray (w : World) (m : Nat) (k : Key) (d : List Nat) (size : Int) :
    Res (World × Int) :=
  if size < 0 then .ok (w, 1)
  else if isValidVSMapKey k = false then .ok (w, 1)
  else if size.toNat > d.length then .ub
  else do
    let p := newArr w (Arr.ofList .float ((d.take size.toNat).map Val.float))
    let w ← mapInsert p.1 m k p.2
    .ok (w, 0)

/-! ## Histories -/

/-- A call on maps.  `mapGetKey`/`mapNumKeys` are treated separately. -/
inductive Op where
  | create
  | clone (src : Nat)
  | assign (dst src : Nat)
  | copy (src dst : Nat)
  | free (m : Nat)
  | clear (m : Nat)
  | setError (m : Nat) (msg : List Nat)
  | setInt (m : Nat) (k : Key) (i append : Int)
  | setFloat (m : Nat) (k : Key) (bits : Nat) (append : Int)
  | setData (m : Nat) (k : Key) (d : List Nat) (length hint append : Int)
  | setNode (m : Nat) (k : Key) (o : Option (Nat × Bool)) (append : Int)
  | setFrame (m : Nat) (k : Key) (o : Option (Nat × Bool)) (append : Int)
  | setFunction (m : Nat) (k : Key) (p : Option Nat) (append : Int)
  | setEmpty (m : Nat) (k : Key) (type : Int)
  | setIntArray (m : Nat) (k : Key) (d : List Int) (size : Int)
  | setFloatArray (m : Nat) (k : Key) (d : List Nat) (size : Int)
  | delete (m : Nat) (k : Key)
  | numElements (m : Nat) (k : Key)
  | getType (m : Nat) (k : Key)
  | getInt (m : Nat) (k : Key) (index : Int) (errPtr : Bool)
  | getIntSaturated (m : Nat) (k : Key) (index : Int) (errPtr : Bool)
  | getFloat (m : Nat) (k : Key) (index : Int) (errPtr : Bool)
  | getData (m : Nat) (k : Key) (index : Int) (errPtr : Bool)
  | getNode (m : Nat) (k : Key) (index : Int) (errPtr : Bool)
  | getFrame (m : Nat) (k : Key) (index : Int) (errPtr : Bool)
  | getFunction (m : Nat) (k : Key) (index : Int) (errPtr : Bool)
  | getIntArray (m : Nat) (k : Key) (errPtr : Bool)
  | getFloatArray (m : Nat) (k : Key) (errPtr : Bool)
  | getError (m : Nat)

/-- What the caller gets back. -/
inductive Out where
  | unit
  | handle (m : Nat)
  | code (i : Int)
  | type (t : PType)
  | int (i : Int) (err : Int)
  | float (bits : Nat) (err : Int)
  | data (d : Option (Int × List Nat)) (err : Int)
  | obj (p : Option Nat) (err : Int)
  | array (l : Option (List Val)) (err : Int)
  | message (b : Option (List Nat))
  deriving DecidableEq, Repr

/-- A call without result. -/
def retUnit (r : Res World) : Res (World × Out) := do let w ← r; .ok (w, .unit)
/-- A call returning a new map. -/
def retHandle (r : Res (World × Nat)) : Res (World × Out) := do let p ← r; .ok (p.1, .handle p.2)
/-- A call returning a code. -/
def retCode (r : Res (World × Int)) : Res (World × Out) := do let p ← r; .ok (p.1, .code p.2)
/-- A read, which leaves everything as it is. -/
def retRead {α : Type} (w : World) (f : α → Out) (r : Res α) : Res (World × Out) := do
  let v ← r
  .ok (w, f v)

/-- One call. -/
def step (w : World) : Op → Res (World × Out)
  | .create => retHandle (.ok (mapCreate w))
  | .clone src => retHandle (mapClone w src)
  | .assign dst src => retUnit (mapAssign w dst src)
  | .copy src dst => retUnit (mapCopy w dst src)
  | .free m => retUnit (mapFree w m)
  | .clear m => retUnit (mapClear w m)
  | .setError m msg => retUnit (mapSetError w m msg)
  | .setInt m k i a => retCode (mapSetInt w m k i a)
  | .setFloat m k b a => retCode (mapSetFloat w m k b a)
  | .setData m k d l h a => retCode (mapSetData w m k d l h a)
  | .setNode m k o a => retCode (setObj2 w m k o .videoNode .audioNode a)
  | .setFrame m k o a => retCode (setObj2 w m k o .videoFrame .audioFrame a)
  | .setFunction m k p a => retCode (mapSetFunction w m k p a)
  | .setEmpty m k t => retCode (mapSetEmpty w m k t)
  | .setIntArray m k d s => retCode (mapSetIntArray w m k d s)
  | .setFloatArray m k d s => retCode (mapSetFloatArray w m k d s)
  | .delete m k => retCode (do let r ← mapDeleteKey w m k; .ok (r.1, if r.2 then 1 else 0))
  | .numElements m k => retRead w .code (mapNumElements w m k)
  | .getType m k => retRead w .type (mapGetType w m k)
  | .getInt m k i e => retRead w (fun p => .int p.1 p.2) (mapGetInt w m k i e)
  | .getIntSaturated m k i e => retRead w (fun p => .int p.1 p.2) (mapGetIntSaturated w m k i e)
  | .getFloat m k i e => retRead w (fun p => .float p.1 p.2) (mapGetFloat w m k i e)
  | .getData m k i e => retRead w (fun p => .data p.1 p.2) (mapGetData w m k i e)
  | .getNode m k i e => retRead w (fun p => .obj p.1 p.2) (mapGetNode w m k i e)
  | .getFrame m k i e => retRead w (fun p => .obj p.1 p.2) (mapGetFrame w m k i e)
  | .getFunction m k i e => retRead w (fun p => .obj p.1 p.2) (mapGetFunction w m k i e)
  | .getIntArray m k e => retRead w (fun p => .array p.1 p.2) (mapGetIntArray w m k e)
  | .getFloatArray m k e => retRead w (fun p => .array p.1 p.2) (mapGetFloatArray w m k e)
  | .getError m => retRead w .message (mapGetError w m)

/-- A finished history: every call returned. -/
def run (w : World) : List Op → Res (World × List Out)
  | [] => .ok (w, [])
  | op :: t => do
    let p ← step w op
    let q ← run p.1 t
    .ok (q.1, p.2 :: q.2)

end VS.Map
