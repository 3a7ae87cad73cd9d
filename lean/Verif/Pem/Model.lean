import Verif.Average.Model
import Verif.Resample.Model
import Verif.Half.Model

/-!
# PEMVerifier

Model of src/core/simplefilters.cpp:1744-1886.

Simplifications: those of `Verif/Pix` and `Verif/Point`. The conversion of the bounds from `double` to `float`, the text that `%f`
gives and the result of `lround` for a NaN (unspecified in C) are parameters. The message for a wrong format does not name it.
-/

namespace VS.Pem
open VS VS.Format VS.Map VS.Map.Spec VS.Pix VS.Point VS.Gain

/-- What is left open about floating point numbers. -/
structure PFloats where
  /-- `(float)v` -/
  single : Dbl → Dbl
  /-- `static_cast<int>(lround(NAN))` -/
  nanRound : Int
  /-- the text for `%f` -/
  text : Dbl → String

variable (F : PFloats)

/-! ## Frames -/

/-- `a < b` for numbers of type `float`. -/
def lt : Dbl → Dbl → Bool
  | .fin a, .fin b => decide (a < b)
  | .fin _, .inf n => !n
  | .inf n, .fin _ => n
  | .inf a, .inf b => a && !b
  | _, _ => false

/-- `isfinite(f)`. -/
def isFinite : Dbl → Bool
  | .fin _ => true
  | _ => false

/-- The bounds of a plane: elements of `PEMVerifierDataExtra`, simplefilters.cpp:1747-1752. -/
structure Bounds where
  lower : Int
  upper : Int
  lowerf : Dbl
  upperf : Dbl

/-- The `switch` over the size of a sample, simplefilters.cpp:1774-1831; nothing happens for other sizes. -/
def sizeKind (f : VFmt) : Option Kind :=
  if f.bytesPerSample = 1 then some .byte
  else if f.bytesPerSample = 2 then (if f.sampleType = stFloat then some .half else some .word)
  else if f.bytesPerSample = 4 then some .single
  else none

/-- The check of an integer, simplefilters.cpp:1778 and 1806; the text of an illegal value. -/
def badInt (b : Bounds) (v : Nat) : Option String :=
  if (v : Int) < b.lower ∨ (v : Int) > b.upper then some (toString v) else none

/-- The check of a float, simplefilters.cpp:1793 and 1821. -/
def badFloat (b : Bounds) (f : Dbl) : Option String :=
  if lt f b.lowerf || lt b.upperf f || !isFinite f then some (F.text f) else none

/-- The check of a sample. -/
def badSample (k : Kind) (b : Bounds) (v : Nat) : Option String :=
  match k with
  | .byte | .word => badInt b v
  | .half => badFloat F b (Resample.f32 (Half.halfToFloat v : Nat))
  | .single => badFloat F b (Resample.f32 (v : Nat))

/-- The message, simplefilters.cpp:1779, 1794, 1807 and 1822. -/
def message (value : String) (plane y x n : Nat) : String :=
  "PEMVerifier: Illegal sample value (" ++ value ++ ") at: plane: " ++ toString plane ++ " Y: " ++ toString y ++ ", X: " ++ toString x ++
    ", Frame: " ++ toString n

/-- A plane, simplefilters.cpp:1766-1831. -/
def verifyPlane (al n : Nat) (bounds : Nat → Bounds) (src : Frm) (p : Nat) : Res Unit := do
  let b ← src.plane p
  match sizeKind src.fmt with
  | none => .ok ()
  | some k => forN (fun y _ => forN (fun x _ => do
      let v ← rd b k.bytes (y * src.stride al p + x * k.bytes : Nat)
      match badSample F k (bounds p) v with
      | some t => .err (message t p y x n)
      | none => .ok ()) (src.w p) ()) (src.h p) ()

/-- `pemVerifierGetFrame`, simplefilters.cpp:1756-1836. -/
def pemFilter (al : Nat) (vi : VInfo) (bounds : Nat → Bounds) : PFilter :=
  ⟨vi, fun n => [(0, n)], fun n get _ => do
    let src ← get 0 n
    forN (fun p _ => verifyPlane F al n bounds src p) src.fmt.numPlanes.toNat ()
    .ok src⟩

/-! ## Arguments -/

/-- `floatToIntS`, src/core/filtershared.h:51-58. -/
def toIntS : Dbl → Int
  | .fin q => Average.floatToIntS q
  | .inf neg => if neg then -2 ^ 31 else 2 ^ 31 - 1
  | .nan => F.nanRound

/-- `1 << bits` of type `int`: undefined if the type has not more bits. -/
def shl1 (bits : Int) : Res Int := if 0 ≤ bits ∧ bits < 31 then .ok (2 ^ bits.toNat) else .ub

/-- The condition for a lower bound, simplefilters.cpp:1858. -/
def badLower (f : VFmt) (i : Int) : Res Bool :=
  if f.sampleType = stInteger then do
    let top ← shl1 f.bitsPerSample
    .ok (decide (i < 0 ∨ i ≥ top))
  else .ok false

/-- The loop over the lower bounds, simplefilters.cpp:1855-1860. -/
def lowerLoop (f : VFmt) : List Dbl → Res (List (Int × Dbl))
  | [] => .ok []
  | v :: t => do
    let bad ← badLower f (toIntS F (F.single v))
    if bad then .err "PEMVerifier: Invalid lower bound given"
    else do
      let l ← lowerLoop f t
      .ok ((toIntS F (F.single v), F.single v) :: l)

/-- Is this a chroma plane, simplefilters.cpp:1852 and 1868? -/
def chroma (f : VFmt) (p : Nat) : Bool := decide (f.colorFamily = cfYUV ∧ p ≠ 0)

/-- The lower bounds, simplefilters.cpp:1849-1863; `none` is an argument that is not given. -/
def lowers (f : VFmt) : Option (List Dbl) → Res (List (Int × Dbl))
  | none => .ok ((List.range f.numPlanes.toNat).map fun p => (0, .fin (if chroma f p then -1 / 2 else 0)))
  | some l =>
    if (l.length : Int) = f.numPlanes then lowerLoop F f l
    else .err "PEMVerifier: number of lower plane limits does not match the number of planes"

/-- The condition for an upper bound, simplefilters.cpp:1874-1877. -/
def badUpper (f : VFmt) (i : Int) (x : Dbl) (lo : Int × Dbl) : Res Bool :=
  if f.sampleType = stInteger then do
    let top ← shl1 f.bitsPerSample
    .ok (decide (i < lo.1 ∨ i ≥ top))
  else .ok (lt x lo.2)

/-- The loop over the upper bounds, simplefilters.cpp:1871-1879, with the lower bounds. -/
def upperLoop (f : VFmt) : List (Dbl × Int × Dbl) → Res (List (Int × Dbl))
  | [] => .ok []
  | (v, lo) :: t => do
    let bad ← badUpper f (toIntS F (F.single v)) (F.single v) lo
    if bad then .err "PEMVerifier: Invalid upper bound given"
    else do
      let l ← upperLoop f t
      .ok ((toIntS F (F.single v), F.single v) :: l)

/-- The upper bounds, simplefilters.cpp:1865-1882. -/
def uppers (f : VFmt) (lo : List (Int × Dbl)) : Option (List Dbl) → Res (List (Int × Dbl))
  | none => do
    let top ← shl1 f.bitsPerSample
    .ok ((List.range f.numPlanes.toNat).map fun p => (top - 1, .fin (if chroma f p then 1 / 2 else 1)))
  | some l =>
    if (l.length : Int) = f.numPlanes then upperLoop F f (l.zip lo)
    else .err "PEMVerifier: number of upper plane limits does not match the number of planes"

/-- The bounds of plane `p`. -/
def boundsOf (lo hi : List (Int × Dbl)) (p : Nat) : Bounds :=
  ⟨(lo.getD p (0, .nan)).1, (hi.getD p (0, .nan)).1, (lo.getD p (0, .nan)).2, (hi.getD p (0, .nan)).2⟩

/-- `pemVerifierCreate`, simplefilters.cpp:1838-1886. -/
def pemCreate (al : Nat) (vi : VInfo) (lower upper : Option (List Dbl)) : Res Created :=
  if !is8to16orFloat vi.format then .err (badFormat "PEMVerifier")
  else do
    let lo ← lowers F vi.format lower
    let hi ← uppers F vi.format lo upper
    create (pemFilter F al vi (boundsOf lo hi))

end VS.Pem
