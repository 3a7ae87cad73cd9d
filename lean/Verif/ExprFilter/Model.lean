import Verif.Average.Model
import Verif.Expr.Opt
import Verif.Expr.Parse

/-!
# The filter Expr

The creation of the filter and its frames, src/core/exprfilter.cpp:170-376, without the just-in-time compiler: the planes are computed
by the interpreter (`Verif.Expr.Code`), as the program does for the CPU level "none". The text is translated by `Verif.Expr.Parse` and
`Verif.Expr.Opt`.
-/

namespace VS.ExprFilter
open VS VS.Format VS.Map VS.Pix VS.Point VS.Average VS.Expr

variable {α : Type}

/-- What is left open: the arithmetic of `float`, how numbers are read, the choices of the optimizer (see `Verif.Expr.Opt`), the
conversion of samples to `float` (exprfilter.cpp:114-117) and the conversion to half and single precision samples
(exprfilter.cpp:158-159). -/
structure Env (α : Type) where
  A : Arith α
  num : List Char → Option α
  keep : α → α
  twice : E α → Bool → Bool
  nan : α
  load : Mem → Nat → α
  half : α → Nat
  float : α → Nat

/-- The type of loads and stores for a format, src/core/expr/expr.cpp:279-286 and 1509-1516; the type is `U8` before. -/
def memOf (f : VFmt) : Mem :=
  if f.sampleType = stInteger ∧ f.bytesPerSample = 1 then .u8
  else if f.sampleType = stInteger ∧ f.bytesPerSample = 2 then .u16
  else if f.sampleType = stFloat ∧ f.bytesPerSample = 2 then .f16
  else if f.sampleType = stFloat ∧ f.bytesPerSample = 4 then .f32
  else .u8

/-- The size of the elements of the pointers, exprfilter.cpp:114-117 and 156-159. -/
def memBytes : Mem → Nat
  | .u8 => 1
  | .u16 => 2
  | .f16 => 2
  | .f32 => 4

/-- The bits that are stored, exprfilter.cpp:156-159; integers are converted to unsigned types. -/
def raw (V : Env α) : Out α → Nat
  | .int v => (v % 65536).toNat
  | .half a => V.half a
  | .float a => V.float a

/-- What is done with a plane, exprfilter.cpp:51-53. -/
inductive PlaneOp where
  | process | copy | undefined
  deriving DecidableEq

/-! ## Frames -/

/-- The samples at `x`, `y` of all clips; each clip has its own pointer, stride and type, exprfilter.cpp:114-117, 201-205, 231-233.
All clips are read here, the program reads those that the code loads. -/
def readCell (al p x y : Nat) : List (Frm × Buf) → Res (List Nat)
  | [] => .ok []
  | (f, b) :: t => do
    let v ← rd b (memBytes (memOf f.fmt)) (y * f.stride al p + x * memBytes (memOf f.fmt) : Nat)
    let l ← readCell al p x y t
    .ok (v :: l)

/-- A plane, exprfilter.cpp:201-235. The registers of the interpreter keep their values from sample to sample in the program and start
with 0 here; the result does not depend on them (C52). -/
def exprPlane (V : Env α) (al : Nat) (code : List (Insn α)) (frames : List Frm) (dst : Frm) (p : Nat) (b : Buf) : Res Buf := do
  let bs ← readPtrs p frames
  fill (fun x y => do
    let l ← readCell al p x y (frames.zip bs)
    let r ← run V.A (fun m i => V.load m (l.getD i 0)) code (List.replicate (numRegs code) (V.A.ofInt 0))
    .ok (raw V r.1)) (memBytes (memOf dst.fmt)) (dst.stride al p) (dst.w p) (dst.h p) b

/-- The new frame, exprfilter.cpp:182-237. -/
def exprFrame (V : Env α) (al : Nat) (fo : VFmt) (op : Nat → PlaneOp) (codes : List (List (Insn α))) (frames : List Frm) (junk : Junk) :
    Res Frm :=
  match frames[0]? with
  | none => .ub
  | some src => do
    let srcs := [0, 1, 2].map fun p : Nat => if op p ≠ .copy then none else some (src, (p : Int))
    let dst ← newVideoFrameOpt al fo src.width src.height srcs src.props junk
    dst.build fun p b => if op p ≠ .process then .ok b else exprPlane V al (codes.getD p []) frames dst p b

/-- `exprGetFrame`, exprfilter.cpp:170-246. -/
def exprFilter (V : Env α) (al : Nat) (vi : VInfo) (clips : Nat) (op : Nat → PlaneOp) (codes : List (List (Insn α))) : PFilter :=
  ⟨vi, fun n => (List.range clips).map fun i => (i, n), fun n get junk => do
    let frames ← getEach get n clips 0
    exprFrame V al vi.format op codes frames junk⟩

/-! ## Arguments -/

/-- The arguments; the number of the format is the bit pattern of the `int`. -/
structure Args where
  exprs : List (List Char)
  format : Option Nat

/-- The loop over the clips, exprfilter.cpp:284-298. -/
def checkClips (v0 : VInfo) : List VInfo → Res Unit
  | [] => .ok ()
  | v :: t =>
    if !isConstantVideoFormat v then .err "Expr: Only clips with constant format and dimensions allowed"
    else if v0.format.numPlanes ≠ v.format.numPlanes ∨ v0.format.subSamplingW ≠ v.format.subSamplingW ∨
        v0.format.subSamplingH ≠ v.format.subSamplingH ∨ v0.width ≠ v.width ∨ v0.height ≠ v.height then
      .err "Expr: All inputs must have the same number of planes and the same dimensions, subsampling included"
    else if !is8to16orFloat v.format then .err (badFormat "Expr")
    else checkClips v0 t

/-- The argument `format`, exprfilter.cpp:301-311. -/
def wantedFormat (r : Reg) (f : VFmt) (format : Option Nat) : Res VFmt :=
  match format with
  | none => .ok f
  | some id =>
    let q := getVideoFormatByID r id
    if q.1 = false ∨ q.2.colorFamily = cfUndefined then .err "Expr: the format id specified in format is invalid"
    else if f.colorFamily ≠ q.2.colorFamily ∨ f.subSamplingW ≠ q.2.subSamplingW ∨ f.subSamplingH ≠ q.2.subSamplingH then
      .err "Expr: the output format must have the same color family and subsampling as the input"
    else if f.numPlanes ≠ q.2.numPlanes then .err "Expr: The number of planes in the inputs and output must match"
    else .ok (queryVideoFormat q.2.colorFamily q.2.sampleType q.2.bitsPerSample q.2.subSamplingW q.2.subSamplingH).2

/-- The format of the result, exprfilter.cpp:300-314. -/
def outFormat (r : Reg) (f : VFmt) (format : Option Nat) : Res VFmt := do
  let fo ← wantedFormat r f format
  if !is8to16orFloat fo then .err (badFormat "Expr") else .ok fo

/-- The expressions of the planes, exprfilter.cpp:320-326. -/
def textOf (es : List (List Char)) (i : Nat) : List Char :=
  match es[i]? with
  | some s => s
  | none => es.getLast?.getD []

/-- What is done with a plane, exprfilter.cpp:329-336. -/
def opOf (f fo : VFmt) (s : List Char) : PlaneOp :=
  if s ≠ [] then .process
  else if fo.bitsPerSample = f.bitsPerSample ∧ fo.sampleType = f.sampleType then .copy
  else .undefined

/-- The type of the samples of a clip. -/
def clipMem (vis : List VInfo) (i : Nat) : Mem :=
  match vis[i]? with
  | some v => memOf v.format
  | none => .u8

/-- The call of `compile`, exprfilter.cpp:341. -/
def compileText [DecidableEq α] (V : Env α) (vis : List VInfo) (fo : VFmt) (s : List Char) : Res (List (Insn α)) := do
  let e ← parseExpr V.num (clipMem vis) vis.length s
  compile V.A V.keep V.twice V.nan e (memOf fo) fo.bitsPerSample.toNat

/-- The body of the loop over the planes, exprfilter.cpp:329-341. -/
def compilePlane [DecidableEq α] (V : Env α) (vis : List VInfo) (fo : VFmt) (s : List Char) : Res (List (Insn α)) :=
  if s = [] then .ok [] else compileText V vis fo s

/-- The loop over the planes, exprfilter.cpp:328-359. -/
def compileLoop [DecidableEq α] (V : Env α) (vis : List VInfo) (fo : VFmt) (text : Nat → List Char) : Nat → Nat → Res (List (List (Insn α)))
  | 0, _ => .ok []
  | k + 1, i => do
    let c ← compilePlane V vis fo (text i)
    let l ← compileLoop V vis fo text k (i + 1)
    .ok (c :: l)

/-- `exprCreate`, exprfilter.cpp:255-376. The arguments `clips` and `expr` are not optional, and lists without elements
are refused before (src/core/vscore.cpp:554); without them elements outside of arrays would be read. The prefix of the messages of the translation is left out. -/
def exprCreate [DecidableEq α] (V : Env α) (r : Reg) (al : Nat) (vis : List VInfo) (a : Args) : Res Created :=
  if vis.length > 26 then .err "Expr: More than 26 input clips provided"
  else match vis with
    | [] => .ub
    | v0 :: _ => do
      let _ ← checkClips v0 vis
      let fo ← outFormat r v0.format a.format
      if (a.exprs.length : Int) > fo.numPlanes then .err "Expr: More expressions given than there are planes"
      else if a.exprs = [] then .ub
      else do
        let codes ← compileLoop V vis fo (textOf a.exprs) fo.numPlanes.toNat 0
        create (exprFilter V al { v0 with format := fo } vis.length (fun p => opOf v0.format fo (textOf a.exprs p)) codes)

end VS.ExprFilter
