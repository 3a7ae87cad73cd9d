import Verif.Point.Mem
import Verif.Format.Model

/-!
# Lut and Lut2

Model of src/core/lutfilters.cpp: the tables and the plain C++ loops. The AVX-512 and NEON versions are not modelled.
-/

namespace VS.Lut
open VS VS.Format VS.Map VS.Map.Spec VS.Pix VS.Point

/-- What a call of the argument `function` leaves in its output map: an error, or the property `val`. -/
inductive Ret where
  | error (msg : String)
  | int (v : Int)
  | float (bits : Nat)
  | other

/-- The argument that gives the values. The elements of `lutf` are the bits of double precision numbers. -/
structure Args where
  planes : List Int
  lut : Option (List Int)
  lutf : Option (List Nat)
  function : Option (Nat → Nat → Ret)
  bits : Option Int
  floatout : Option Int

/-- The conversion of the bits of a double precision number to those of a single precision number. -/
structure Conv where
  single : Nat → Nat
  single_lt : ∀ b, single b < 2 ^ 32

variable (F : Conv)

/-- `lut[i] = v`. -/
def set (t : Nat → Nat) (i v : Nat) : Nat → Nat := fun j => if j = i then v else t j

/-- One value of the function, lutfilters.cpp:165-192 and 464-496: the error or the new entry. The call of Lut gives the
message of the function itself. -/
def entry (name : String) (prefixed isInt : Bool) (nout : Nat) (r : Ret) : String ⊕ Nat :=
  match r with
  | .error m => .inl (if prefixed then name ++ ": function returned an error: " ++ m else m)
  | .int v =>
    if isInt then
      (if v < 0 ∨ v ≥ nout then .inl (name ++ ": function returned invalid value") else .inr v.toNat)
    else .inl (name ++ ": function didn't return a float value")
  | .float b =>
    if isInt then .inl (name ++ ": function didn't return an integer value") else .inr (F.single b)
  | .other => .inl (name ++ ": function returned invalid value")

/-- `funcToLut`, lutfilters.cpp:154-199, and `funcToLut2`, 451-505: for all `i` from the given one on, the function is
called with `x` = `i` mod `nx` and `y` = `i` / `nx`; the loop ends at the first error. The result is the error text and the
table. -/
def funcToLut (name : String) (prefixed isInt : Bool) (nx nout : Nat) (f : Nat → Nat → Ret) :
    Nat → Nat → (Nat → Nat) → String × (Nat → Nat)
  | 0, _, t => ("", t)
  | k + 1, i, t =>
    match entry F name prefixed isInt nout (f (i % nx) (i / nx)) with
    | .inl m => (m, t)
    | .inr v => funcToLut name prefixed isInt nx nout f k (i + 1) (set t i v)

/-- The copy of the argument `lut`, lutfilters.cpp:224-231 and 528-535. -/
def copyInts (name : String) (nout : Nat) : List Int → Nat → (Nat → Nat) → Res (Nat → Nat)
  | [], _, t => .ok t
  | v :: l, i, t =>
    if v < 0 ∨ v ≥ nout then .err (name ++ ": lut value out of valid range")
    else copyInts name nout l (i + 1) (set t i v.toNat)

/-- The copy of the argument `lutf`, lutfilters.cpp:233-238 and 537-542. -/
def copyFloats : List Nat → Nat → (Nat → Nat) → (Nat → Nat)
  | [], _, t => t
  | v :: l, i, t => copyFloats l (i + 1) (set t i (F.single v))

/-- Make the table, lutfilters.cpp:201-240 and 507-544. `mem` is what the allocated memory contains. -/
def makeTable (name : String) (prefixed : Bool) (a : Args) (fo : VFmt) (nx n : Nat) (mem : Nat → Nat) : Res (Nat → Nat) :=
  let isInt := decide (fo.sampleType = stInteger)
  let maxval := if isInt then 2 ^ fo.bitsPerSample.toNat else 0
  match a.function with
  | some f =>
    let r := funcToLut F name prefixed isInt nx maxval f n 0 mem
    if r.1 ≠ "" then .err r.1 else .ok r.2
  | none =>
    if isInt then copyInts name maxval (a.lut.getD []) 0 mem else .ok (copyFloats F (a.lutf.getD []) 0 mem)

/-- `mapNumElements`. -/
def elems {α} (l : Option (List α)) : Int :=
  match l with
  | some l => l.length
  | none => -1

/-- The number of bits of the result, lutfilters.cpp:274-276 and 585-587. -/
def bitsOut (a : Args) (floatout : Bool) (f : VFmt) : Int :=
  match a.bits with
  | some b => int64ToIntS b
  | none => if floatout then 32 else f.bitsPerSample

/-- The format of the result, lutfilters.cpp:272-280, 319 and 583-591. -/
def outFormat (name : String) (a : Args) (f : VFmt) : Res VFmt :=
  let floatout := decide (a.floatout.getD 0 ≠ 0)
  let bitsout := bitsOut a floatout f
  if (floatout ∧ bitsout ≠ 32) ∨ (floatout = false ∧ (bitsout < 8 ∨ bitsout > 16)) then
    .err (name ++ ": only 8-16 bit integer and 32 bit float output supported")
  else .ok (queryVideoFormat f.colorFamily (if floatout then stFloat else stInteger) bitsout f.subSamplingW f.subSamplingH).2

/-- The number of arguments that are given, lutfilters.cpp:288 and 599. -/
def numSet (nlut nlutf : Int) (func : Bool) : Nat :=
  (if nlut ≥ 0 then 1 else 0) + (if nlutf ≥ 0 then 1 else 0) + (if func then 1 else 0)

/-- The check of the values, lutfilters.cpp:284-317 and 595-628. -/
def checkArgs (name : String) (a : Args) (n : Nat) : Res Unit :=
  let floatout := decide (a.floatout.getD 0 ≠ 0)
  let given := numSet (elems a.lut) (elems a.lutf) a.function.isSome
  if given = 0 then .err (name ++ ": none of lut, lutf and function are set")
  else if given > 1 then .err (name ++ ": more than one of lut, lutf and function are set")
  else if elems a.lut ≥ 0 ∧ floatout then .err (name ++ ": lut set but float output specified")
  else if elems a.lutf ≥ 0 ∧ floatout = false then .err (name ++ ": lutf set but float output not specified")
  else if max (elems a.lut) (elems a.lutf) ≥ 0 ∧ max (elems a.lut) (elems a.lutf) ≠ n then .err (name ++ ": bad lut length")
  else .ok ()

/-! ## Lut -/

/-- The table is as long as there are values of the sample in memory, lutfilters.cpp:205-210, 242-249. -/
def pad (inrange : Nat) (t : Nat → Nat) : Nat → Nat := fun i => if i < inrange then t i else t (inrange - 1)

/-- Read an entry of a table of `size` entries. -/
def look (size : Nat) (t : Nat → Nat) (i : Nat) : Res Nat := if i < size then .ok (t i) else .ub

/-- The number of samples that are written at once, lutfilters.cpp:115-140. -/
def unit (u : Nat) : Nat := if u = 1 then 8 else if u = 2 then 4 else 1

/-- The width up to which is written. -/
def roundUp (w k : Nat) : Nat := (w + (k - 1)) / k * k

/-- One frame of Lut, lutfilters.cpp:65-152. The samples of the source have `s` bytes, those of the result `u`; up to seven
samples behind the end of a row are read and written as well. All strides are multiples of the size of the samples. -/
def lutFrame (al s u : Nat) (fo : VFmt) (t : Nat → Nat) (process : List Bool) (src : Frm) (junk : Junk) : Res Frm := do
  let srcs := [0, 1, 2].map fun p : Nat => if process.getD p false then none else some (src, (p : Int))
  let dst ← newVideoFrameOpt al fo src.width src.height srcs src.props junk
  dst.build fun p b =>
    if process.getD p false then do
      let b1 ← src.plane p
      fill (fun x y => do
        let v ← rd b1 s (y * src.stride al p + x * s : Nat)
        look (256 ^ s) t v) u (Frame.strideOf al (src.w p) u) (roundUp (src.w p) (unit u)) (src.h p) b
    else .ok b

/-- The filter. -/
def lutFilter (al : Nat) (vi : VInfo) (fo : VFmt) (t : Nat → Nat) (process : List Bool) : PFilter :=
  ⟨{ vi with format := fo }, fun n => [(0, n)], fun n get junk => do
    let src ← get 0 n
    lutFrame al vi.format.bytesPerSample.toNat fo.bytesPerSample.toNat fo t process src junk⟩

/-- `lutCreate`, lutfilters.cpp:256-347, and `lutCreateHelper`, 201-254. -/
def lutCreate (al : Nat) (vi : VInfo) (a : Args) (mem : Nat → Nat) : Res Created :=
  if !isConstantVideoFormat vi then .err "Lut: only clips with constant format and dimensions supported"
  else if vi.format.sampleType ≠ stInteger ∨ vi.format.bitsPerSample > 16 then
    .err "Lut: only clips with integer samples and up to 16 bits per channel precision supported"
  else do
    let fo ← outFormat "Lut" a vi.format
    let process ← getProcessPlanesArg "Lut" a.planes
    let n := 2 ^ vi.format.bitsPerSample.toNat
    let _ ← checkArgs "Lut" a n
    let t ← makeTable F "Lut" false a fo n n mem
    create (lutFilter al vi fo (pad n t) process)

/-! ## Lut2 -/

/-- The place in the table, lutfilters.cpp:434. -/
def index2 (bx byy vx vy : Nat) : Nat := min vy (2 ^ byy - 1) * 2 ^ bx + min vx (2 ^ bx - 1)

/-- One frame of Lut2, lutfilters.cpp:399-449. -/
def lut2Frame (al sx sy u bx byy : Nat) (fo : VFmt) (t : Nat → Nat) (process : List Bool) (srcx srcy : Frm) (junk : Junk) :
    Res Frm := do
  let srcs := [0, 1, 2].map fun p : Nat => if process.getD p false then none else some (srcx, (p : Int))
  let dst ← newVideoFrameOpt al fo srcx.width srcx.height srcs srcx.props junk
  dst.build fun p b =>
    if process.getD p false then do
      let b1 ← srcx.plane p
      let b2 ← srcy.plane p
      fill (fun x y => do
        let vx ← rd b1 sx (y * srcx.stride al p + x * sx : Nat)
        let vy ← rd b2 sy (y * srcy.stride al p + x * sy : Nat)
        look (2 ^ bx * 2 ^ byy) t (index2 bx byy vx vy)) u (Frame.strideOf al (srcx.w p) u) (srcx.w p) (srcx.h p) b
    else .ok b

/-- The filter. -/
def lut2Filter (al : Nat) (vx vy : VInfo) (fo : VFmt) (t : Nat → Nat) (process : List Bool) : PFilter :=
  ⟨{ vx with format := fo }, fun n => [(0, n), (1, n)], fun n get junk => do
    let srcx ← get 0 n
    let srcy ← get 1 n
    lut2Frame al vx.format.bytesPerSample.toNat vy.format.bytesPerSample.toNat fo.bytesPerSample.toNat
      vx.format.bitsPerSample.toNat vy.format.bitsPerSample.toNat fo t process srcx srcy junk⟩

/-- `lut2Create`, lutfilters.cpp:562-669, and `lut2CreateHelper`, 507-560. -/
def lut2Create (al : Nat) (vx vy : VInfo) (a : Args) (mem : Nat → Nat) : Res Created :=
  if !isConstantVideoFormat vx || !isConstantVideoFormat vy then
    .err "Lut2: only clips with constant format and dimensions supported"
  else if vx.format.sampleType ≠ stInteger ∨ vy.format.sampleType ≠ stInteger ∨
      vx.format.bitsPerSample + vy.format.bitsPerSample > 20 ∨ vx.format.subSamplingH ≠ vy.format.subSamplingH ∨
      vx.format.subSamplingW ≠ vy.format.subSamplingW ∨ vx.width ≠ vy.width ∨ vx.height ≠ vy.height then
    .err "Lut2: only clips with integer samples, same dimensions, same subsampling and up to a total of 20 indexing bits supported"
  else do
    let fo ← outFormat "Lut2" a vx.format
    let process ← getProcessPlanesArg "Lut2" a.planes
    let nx := 2 ^ vx.format.bitsPerSample.toNat
    let ny := 2 ^ vy.format.bitsPerSample.toNat
    let _ ← checkArgs "Lut2" a (nx * ny)
    let t ← makeTable F "Lut2" true a fo nx (nx * ny) mem
    create (lut2Filter al vx vy fo t process)

end VS.Lut
