import Verif.Base.C

/-!
# Expr: numbers, operators and expression trees

Model of src/core/expr/expr.h, src/core/expr/expr.cpp and the interpreter of src/core/exprfilter.cpp.

The type of numbers is a parameter: everything that the C++ code does with a `float` goes through `Arith`.
Statements which hold for every `Arith` hold in particular for single precision floating point numbers with any
rounding mode and any implementation of the transcendental functions.
-/

namespace VS.Expr

/-- What the code does with values of type `float`. Equality of the type itself is equality of bit patterns
(`imm.u`), `eq` is the floating point comparison. -/
structure Arith (α : Type) where
  add : α → α → α
  sub : α → α → α
  mul : α → α → α
  div : α → α → α
  pow : α → α → α
  neg : α → α
  abs : α → α
  sqrt : α → α
  exp : α → α
  log : α → α
  sin : α → α
  cos : α → α
  /-- floating point `==` -/
  eq : α → α → Bool
  /-- floating point `<` -/
  lt : α → α → Bool
  /-- floating point `<=` -/
  le : α → α → Bool
  /-- conversion of small integers -/
  ofInt : Int → α
  /-- `0.5f` -/
  half : α
  /-- `std::floor(x) == x` -/
  isInteger : α → Bool
  /-- `static_cast<int>(x)`, `none` if that is undefined -/
  toInt : α → Option Int
  /-- `std::isfinite` -/
  isFinite : α → Bool
  /-- `std::lrint` -/
  lrint : α → Int

/-- `ComparisonType`, expr.h:65-72. -/
inductive Cmp where
  | eq | lt | le | neq | nlt | nle
  deriving DecidableEq, Repr

/-- `FMAType`, expr.h:58-63. -/
inductive FmaType where
  | fmadd | fmsub | fnmadd | fnmsub
  deriving DecidableEq, Repr

/-- Type of the samples of a clip: the `MEM_LOAD_` and `MEM_STORE_` operators, expr.h:36-37. -/
inductive Mem where
  | u8 | u16 | f16 | f32
  deriving DecidableEq, Repr

/-- Operators with one operand, expr.h:39-46. -/
inductive Un where
  | sqrt | abs | neg | not | exp | log | sin | cos
  deriving DecidableEq, Repr

/-- Operators with two operands, expr.h:39-46. -/
inductive Bin where
  | add | sub | mul | div | max | min | cmp (c : Cmp) | and | or | xor | pow
  deriving DecidableEq, Repr

/-- Operators with three operands, expr.h:39-49. -/
inductive Tern where
  | fma (k : FmaType) | ternary
  deriving DecidableEq, Repr

/-- `ExpressionTreeNode`, expr.cpp:43-93. The number in each node is `valueNum`, `none` for -1.

Simplifications: an operator always has its operands, so there are no null pointers; the node with operator `MUX`
under a node with three operands is part of that node; parent pointers follow from the position. -/
inductive E (α : Type) where
  | load (vn : Option Nat) (m : Mem) (clip : Nat)
  | const (vn : Option Nat) (a : α)
  | un (vn : Option Nat) (op : Un) (l : E α)
  | bin (vn : Option Nat) (op : Bin) (l r : E α)
  | tern (vn : Option Nat) (op : Tern) (l rl rr : E α)
  deriving DecidableEq, Repr

variable {α : Type}

/-- `valueNum`. -/
def E.vn : E α → Option Nat
  | .load n _ _ => n
  | .const n _ => n
  | .un n _ _ => n
  | .bin n _ _ _ => n
  | .tern n _ _ _ _ => n

/-- Assignment to `valueNum`. -/
def E.setVn (n : Option Nat) : E α → E α
  | .load _ m c => .load n m c
  | .const _ a => .const n a
  | .un _ o l => .un n o l
  | .bin _ o l r => .bin n o l r
  | .tern _ o l a b => .tern n o l a b

/-- `ExpressionTree::clone`, expr.cpp:114-123: new nodes have no number. -/
def E.clone : E α → E α
  | .load _ m c => .load none m c
  | .const _ a => .const none a
  | .un _ o l => .un none o l.clone
  | .bin _ o l r => .bin none o l.clone r.clone
  | .tern _ o l a b => .tern none o l.clone a.clone b.clone

/-- `replaceNode`, expr.cpp:437-442: everything but the number of the node is replaced. -/
def replaceNode (node replacement : E α) : E α := replacement.setVn node.vn

namespace Arith

variable (A : Arith α)

/-- `bool2float`, expr.cpp:369, exprfilter.cpp:92. -/
def ofBool (b : Bool) : α := if b then A.ofInt 1 else A.ofInt 0

/-- `float2bool`, expr.cpp:370, exprfilter.cpp:93. -/
def toBool (x : α) : Bool := A.lt (A.ofInt 0) x

/-- `std::max`. -/
def max (x y : α) : α := if A.lt x y then y else x

/-- `std::min`. -/
def min (x y : α) : α := if A.lt y x then y else x

/-- The comparisons, exprfilter.cpp:141-150, expr.cpp:395-404. -/
def cmp : Cmp → α → α → Bool
  | .eq, x, y => A.eq x y
  | .lt, x, y => A.lt x y
  | .le, x, y => A.le x y
  | .neq, x, y => !A.eq x y
  | .nlt, x, y => A.le y x
  | .nle, x, y => A.lt y x

/-- Operators with one operand, exprfilter.cpp:133-140,155, expr.cpp:390-392,408-413. -/
def un : Un → α → α
  | .sqrt, x => A.sqrt x
  | .abs, x => A.abs x
  | .neg, x => A.neg x
  | .not, x => A.ofBool (!A.toBool x)
  | .exp, x => A.exp x
  | .log, x => A.log x
  | .sin, x => A.sin x
  | .cos, x => A.cos x

/-- Operators with two operands, exprfilter.cpp:119-154, expr.cpp:378-411. -/
def bin : Bin → α → α → α
  | .add, x, y => A.add x y
  | .sub, x, y => A.sub x y
  | .mul, x, y => A.mul x y
  | .div, x, y => A.div x y
  | .max, x, y => A.max x y
  | .min, x, y => A.min x y
  | .cmp c, x, y => A.ofBool (A.cmp c x y)
  | .and, x, y => A.ofBool (A.toBool x && A.toBool y)
  | .or, x, y => A.ofBool (A.toBool x || A.toBool y)
  | .xor, x, y => A.ofBool (A.toBool x != A.toBool y)
  | .pow, x, y => A.pow x y

/-- Operators with three operands, exprfilter.cpp:123-130,151, expr.cpp:382-389,414. -/
def tern : Tern → α → α → α → α
  | .fma .fmadd, x, y, z => A.add (A.mul y z) x
  | .fma .fmsub, x, y, z => A.sub (A.mul y z) x
  | .fma .fnmadd, x, y, z => A.add (A.neg (A.mul y z)) x
  | .fma .fnmsub, x, y, z => A.sub (A.neg (A.mul y z)) x
  | .ternary, x, y, z => if A.toBool x then y else z

end Arith

/-- Value of a tree, given the samples of the clips. This is what the tree means; the program itself evaluates only
constant trees (`evalConstantExpr`, expr.cpp:367-421). -/
def E.eval (A : Arith α) (px : Mem → Nat → α) : E α → α
  | .load _ m c => px m c
  | .const _ a => a
  | .un _ o l => A.un o (l.eval A px)
  | .bin _ o l r => A.bin o (l.eval A px) (r.eval A px)
  | .tern _ o l a b => A.tern o (l.eval A px) (a.eval A px) (b.eval A px)

end VS.Expr
