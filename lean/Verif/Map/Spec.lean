import Verif.Map.Model

/-!
# What property maps promise

A map is a plain dictionary from keys to a type and a list of values, plus an "error" flag.
Nothing here knows about storages, arrays, sharing or reference counts.  Handles of maps that
were never created or have been freed must not be used (`ub`).
-/

namespace VS.Map.Spec
open VS VS.Map

/-- What a key maps to. -/
abbrev Entry := PType × List Val

/-- A plain dictionary. -/
structure Dict where
  err : Bool
  get : Key → Option Entry

/-- The empty dictionary. -/
def Dict.empty : Dict := ⟨false, fun _ => none⟩

/-- Change the value of one key only. -/
def Dict.put (d : Dict) (k : Key) (e : Option Entry) : Dict :=
  ⟨d.err, fun k' => if k' = k then e else d.get k'⟩

/-- Letters, digits and underscores, not starting with a digit. -/
def KeyOk (k : Key) : Bool :=
  match k.toList with
  | [] => false
  | c :: t => (c.isAlpha || c == '_') && t.all fun c => c.isAlphanum || c == '_'

/-- The name under which integer properties are kept. -/
def canon (k : Key) : Key := if k = "_ColorRange" then "_Range" else k

/-- `_ColorRange` says 1 for limited and 0 for full range, `_Range` the reverse. -/
def flip (i : Int) : Int := if i = 0 then 1 else if i = 1 then 0 else i

/-- The value to keep for a value given under `k`. -/
def trans (k : Key) (i : Int) : Int := if k = "_ColorRange" then flip i else i

/-- Does a value belong to a property type? -/
def Fits : PType → Val → Prop
  | .int, .int _ => True
  | .float, .float _ => True
  | .data, .data _ _ => True
  | .function, .obj _ | .videoNode, .obj _ | .audioNode, .obj _ | .videoFrame, .obj _
  | .audioFrame, .obj _ => True
  | _, _ => False

/-- Set a key: mode 0 replaces, mode 1 appends and fails if the key holds another type, mode 2
creates an empty list and fails if the key exists.  `none`: failure. -/
def setVal (d : Dict) (k : Key) (v : Val) (ty : PType) (mode : Int) : Option Dict :=
  if KeyOk k = false then none
  else if mode = 0 then some (d.put k (some (ty, [v])))
  else if mode = 1 then
    match d.get k with
    | none => some (d.put k (some (ty, [v])))
    | some (ty', l) => if ty' = ty then some (d.put k (some (ty, l ++ [v]))) else none
  else match d.get k with
    | none => some (d.put k (some (ty, [])))
    | some _ => none

/-- All maps, by handle. -/
abbrev State := List (Option Dict)

/-- No map yet. -/
def State.empty : State := []

/-- The dictionary of a handle. -/
def look (s : State) (m : Nat) : Res Dict :=
  match s[m]?.join with
  | some d => .ok d
  | none => .ub

/-- Replace the dictionary of a handle. -/
def upd (s : State) (m : Nat) (d : Option Dict) : State := s.set m d

/-- A setter: on failure nothing changes and 1 is returned. -/
def setter (s : State) (m : Nat) (k : Key) (v : Val) (ty : PType) (mode : Int) :
    Res (State × Out) :=
  if mode ≠ 0 ∧ mode ≠ 1 ∧ mode ≠ 2 then .fatal "Invalid prop append mode"
  else if KeyOk k = false then .ok (s, .code 1)
  else do
    let d ← look s m
    match setVal d k v ty mode with
    | some d' => .ok (upd s m (some d'), .code 0)
    | none => .ok (s, .code 1)

/-- An array setter. -/
def setArray (s : State) (m : Nat) (k : Key) (l : List Val) (ty : PType) : Res (State × Out) := do
  let d ← look s m
  .ok (upd s m (some (d.put k (some (ty, l)))), .code 0)

/-- The type codes of the header. -/
def typeOf : Int → Option PType
  | 1 => some .int | 2 => some .float | 3 => some .data | 4 => some .function
  | 5 => some .videoNode | 6 => some .audioNode | 7 => some .videoFrame | 8 => some .audioFrame
  | _ => none

/-- The bytes before the first zero; `none` if the memory ends before that. -/
def cString : List Nat → Option (List Nat)
  | [] => none
  | 0 :: _ => some []
  | (c + 1) :: t => (cString t).map ((c + 1) :: ·)

/-- The bytes given to a data setter: an explicit length, or a zero terminated string. -/
def bytes (mem : List Nat) (length : Int) : Option (List Nat) :=
  if length < 0 then cString mem
  else if mem.length < length.toNat then none
  else some (mem.take length.toNat)

/-- The nearest 32 bit integer. -/
def saturate (i : Int) : Int := max (-2147483648) (min 2147483647 i)

/-- Reading element `i` of type `ty`: `Sum.inl` is the error code (1 unset, 2 type,
3 error map, 4 index). -/
def readAt (d : Dict) (k : Key) (i : Int) (ty : PType) : Int ⊕ Val :=
  if d.err then .inl 3
  else match d.get k with
    | none => .inl 1
    | some (ty', l) =>
      if i < 0 then .inl 4
      else match l[i.toNat]? with
        | none => .inl 4
        | some v => if ty' = ty then .inr v else .inl 2

/-- What the failure of a read means for the caller. -/
def failWith (o : Int → Out) (errPtr : Bool) (c : Int) : Res Out :=
  if errPtr then .ok (o c)
  else if c = 3 then .fatal "map with error set"
  else if c = 1 then .fatal "missing key"
  else if c = 4 then .fatal "out of bounds index"
  else .fatal "wrong type"

/-- A read of an integer. -/
def readInt (d : Dict) (k : Key) (i : Int) (e : Bool) : Res Out :=
  match readAt d (canon k) i .int with
  | .inl c => failWith (.int 0) e c
  | .inr (.int v) => .ok (.int (trans k v) 0)
  | .inr _ => .ub

/-- A read of an integer, saturated to `int`. -/
def readIntSat (d : Dict) (k : Key) (i : Int) (e : Bool) : Res Out :=
  match readAt d (canon k) i .int with
  | .inl c => failWith (.int 0) e c
  | .inr (.int v) => .ok (.int (saturate (trans k v)) 0)
  | .inr _ => .ub

/-- A read of a double. -/
def readFloat (d : Dict) (k : Key) (i : Int) (e : Bool) : Res Out :=
  match readAt d k i .float with
  | .inl c => failWith (.float 0) e c
  | .inr (.float v) => .ok (.float v 0)
  | .inr _ => .ub

/-- A read of a byte string. -/
def readData (d : Dict) (k : Key) (i : Int) (e : Bool) : Res Out :=
  match readAt d k i .data with
  | .inl c => failWith (.data none) e c
  | .inr (.data h b) => .ok (.data (some (h, b)) 0)
  | .inr _ => .ub

/-- A reference read from a map must not be a stored null. -/
def refOut : Val → Res Out
  | .obj (some p) => .ok (.obj (some p) 0)
  | _ => .ub

/-- A read of a function reference. -/
def readFunction (d : Dict) (k : Key) (i : Int) (e : Bool) : Res Out :=
  match readAt d k i .function with
  | .inl c => failWith (.obj none) e c
  | .inr v => refOut v

/-- A read of a node or frame reference, video or audio. -/
def readRef (d : Dict) (k : Key) (i : Int) (e : Bool) (tyV tyA : PType) : Res Out :=
  match readAt d k i tyV with
  | .inr v => refOut v
  | .inl _ =>
    match readAt d k i tyA with
    | .inl c => failWith (.obj none) e c
    | .inr v => refOut v

/-- A read of a whole array: needs at least one element. -/
def readArray (d : Dict) (k : Key) (e : Bool) (ty : PType) (f : List Val → List Val) : Res Out :=
  match readAt d k 0 ty with
  | .inl c => failWith (.array none) e c
  | .inr _ =>
    match d.get k with
    | some (_, l) => .ok (.array (some (f l)) 0)
    | none => .ub

/-- What the array view under the name `_ColorRange` shows, as the code has it: a single value
is shown as 0 or 1, several values are shown unchanged.  (C04 is about this being wrong.) -/
def rangeArray (k : Key) (l : List Val) : List Val :=
  if k = "_ColorRange" then
    match l with
    | [.int i] => [.int (if flip i = 1 then 1 else 0)]
    | l => l
  else l

/-- The error message. -/
def readError (d : Dict) : Res Out :=
  if d.err then
    match d.get "_Error" with
    | none => .fatal "std::out_of_range"
    | some (ty, l) =>
      if ty = .data then
        match l with
        | [] => .fatal "std::out_of_range"
        | .data _ b :: _ => .ok (.message (some b))
        | _ => .ub
      else .ub
  else .ok (.message none)

/-- A read leaves the state alone. -/
def reading (s : State) (m : Nat) (f : Dict → Res Out) : Res (State × Out) := do
  let d ← look s m
  let o ← f d
  .ok (s, o)

/-- `mapSetEmpty`. -/
def setEmpty (s : State) (m : Nat) (k : Key) (type : Int) : Res (State × Out) :=
  if KeyOk k = false then .ok (s, .code 1)
  else do
    let d ← look s m
    let k := if type = 1 then canon k else k
    match d.get k, typeOf type with
    | none, some ty => .ok (upd s m (some (d.put k (some (ty, []))))  , .code 0)
    | _, _ => .ok (s, .code 1)

/-- Deleting: `_ColorRange` also deletes the `_Range` it stands for. -/
def delete (s : State) (m : Nat) (k : Key) : Res (State × Out) := do
  let d ← look s m
  if k = "_ColorRange" then
    .ok (upd s m (some ((d.put k none).put "_Range" none)),
      .code (if (d.get k).isSome ∨ (d.get "_Range").isSome then 1 else 0))
  else .ok (upd s m (some (d.put k none)), .code (if (d.get k).isSome then 1 else 0))

/-- Union, the second dictionary winning. -/
def Dict.merge (d src : Dict) : Dict :=
  ⟨d.err, fun k => match src.get k with | some e => some e | none => d.get k⟩

/-- The error state: only the message under `_Error`. -/
def Dict.error (msg : List Nat) : Dict :=
  ⟨true, fun k => if k = "_Error" then some (.data, [.data 1 msg]) else none⟩

/-- Node or frame argument: null counts as video. -/
def refArg (o : Option (Nat × Bool)) : Val × Bool :=
  match o with
  | none => (.obj none, true)
  | some (p, b) => (.obj (some p), b)

/-- One call. -/
def step (s : State) : Op → Res (State × Out)
  | .create => .ok (s ++ [some Dict.empty], .handle s.length)
  | .clone src => do let d ← look s src; .ok (s ++ [some d], .handle s.length)
  | .assign dst src =>
    if src = dst then .ok (s, .unit)
    else do
      let _ ← look s dst
      let d ← look s src
      .ok (upd s dst (some d), .unit)
  | .copy src dst =>
    if src = dst then .ok (s, .unit)
    else do
      let d ← look s dst
      let e ← look s src
      .ok (upd s dst (some (d.merge e)), .unit)
  | .free m => do let _ ← look s m; .ok (upd s m none, .unit)
  | .clear m => do let _ ← look s m; .ok (upd s m (some Dict.empty), .unit)
  | .setError m msg => do let _ ← look s m; .ok (upd s m (some (Dict.error msg)), .unit)
  | .setInt m k i a => setter s m (canon k) (.int (trans k i)) .int a
  | .setFloat m k b a => setter s m k (.float b) .float a
  | .setData m k d l h a =>
    match bytes d l with
    | some b => setter s m k (.data h b) .data a
    | none => .ub
  | .setNode m k o a =>
    setter s m k (refArg o).1 (if (refArg o).2 then .videoNode else .audioNode) a
  | .setFrame m k o a =>
    setter s m k (refArg o).1 (if (refArg o).2 then .videoFrame else .audioFrame) a
  | .setFunction m k p a => setter s m k (.obj p) .function a
  | .setEmpty m k t => setEmpty s m k t
  | .setIntArray m k d n =>
    if n < 0 ∨ KeyOk k = false then .ok (s, .code 1)
    else if n.toNat > d.length then .ub
    else setArray s m (canon k) ((d.take n.toNat).map fun i => .int (trans k i)) .int
  | .setFloatArray m k d n =>
    if n < 0 ∨ KeyOk k = false then .ok (s, .code 1)
    else if n.toNat > d.length then .ub
    else setArray s m k ((d.take n.toNat).map .float) .float
  | .delete m k => delete s m k
  | .numElements m k => reading s m fun d =>
    .ok (.code (match d.get (canon k) with | some (_, l) => l.length | none => -1))
  | .getType m k => reading s m fun d =>
    .ok (.type (match d.get (canon k) with | some (ty, _) => ty | none => .unset))
  | .getInt m k i e => reading s m fun d => readInt d k i e
  | .getIntSaturated m k i e => reading s m fun d => readIntSat d k i e
  | .getFloat m k i e => reading s m fun d => readFloat d k i e
  | .getData m k i e => reading s m fun d => readData d k i e
  | .getNode m k i e => reading s m fun d => readRef d k i e .videoNode .audioNode
  | .getFrame m k i e => reading s m fun d => readRef d k i e .videoFrame .audioFrame
  | .getFunction m k i e => reading s m fun d => readFunction d k i e
  | .getIntArray m k e => reading s m fun d => readArray d (canon k) e .int (rangeArray k)
  | .getFloatArray m k e => reading s m fun d => readArray d k e .float id
  | .getError m => reading s m readError

/-- A finished history. -/
def run (s : State) : List Op → Res (State × List Out)
  | [] => .ok (s, [])
  | op :: t => do
    let p ← step s op
    let q ← run p.1 t
    .ok (q.1, p.2 :: q.2)

end VS.Map.Spec
