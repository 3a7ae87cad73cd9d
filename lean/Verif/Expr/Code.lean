import Verif.Expr.Basic

/-! # Expr: value numbers, byte code, registers, interpreter -/

namespace VS.Expr

variable {α : Type}

/-- `equalSubTree`, expr.cpp:126-137. -/
def equalSubTree [DecidableEq α] : E α → E α → Bool
  | .load n m c, .load n' m' c' =>
    if n.isSome ∧ n'.isSome then decide (n = n') else decide (m = m' ∧ c = c')
  | .const n a, .const n' a' =>
    if n.isSome ∧ n'.isSome then decide (n = n') else decide (a = a')
  | .un n o l, .un n' o' l' =>
    if n.isSome ∧ n'.isSome then decide (n = n') else decide (o = o') && equalSubTree l l'
  | .bin n o l r, .bin n' o' l' r' =>
    if n.isSome ∧ n'.isSome then decide (n = n') else decide (o = o') && (equalSubTree l l' && equalSubTree r r')
  | .tern n o l a b, .tern n' o' l' a' b' =>
    if n.isSome ∧ n'.isSome then decide (n = n')
    else decide (o = o') && (equalSubTree l l' && (equalSubTree a a' && equalSubTree b b'))
  | x, y => x.vn.isSome && y.vn.isSome && decide (x.vn = y.vn)

/-- The vector `numbered` and the counter of `applyValueNumbering`, expr.cpp:452-453. -/
structure Numbering (α : Type) where
  numbered : List (E α)
  next : Nat

/-- The visitor of `applyValueNumbering`, expr.cpp:460-474. -/
def numberNode [DecidableEq α] (e : E α) (s : Numbering α) : E α × Numbering α :=
  match s.numbered.find? (fun t => equalSubTree e t) with
  | some t => (e.setVn t.vn, s)
  | none => (e.setVn (some s.next), ⟨s.numbered ++ [e.setVn (some s.next)], s.next + 1⟩)

/-- The second traversal of `applyValueNumbering`, expr.cpp:460-474, in postorder. -/
def number [DecidableEq α] : E α → Numbering α → E α × Numbering α
  | .load _ m c, s => numberNode (.load none m c) s
  | .const _ a, s => numberNode (.const none a) s
  | .un _ o l, s =>
    let x := number l s
    numberNode (.un none o x.1) x.2
  | .bin _ o l r, s =>
    let x := number l s
    let y := number r x.2
    numberNode (.bin none o x.1 y.1) y.2
  | .tern _ o l a b, s =>
    let x := number l s
    let y := number a x.2
    let z := number b y.2
    numberNode (.tern none o x.1 y.1 z.1) z.2

/-- `applyValueNumbering`, expr.cpp:450-475. -/
def applyValueNumbering [DecidableEq α] (e : E α) : E α := (number e ⟨[], 0⟩).1

/-- Operator of an instruction: `ExprOp` without `MUX`, `DUP`, `SWAP`, expr.h:34-56. `store` has the format of the
samples and the depth in `imm.u`. -/
inductive Op (α : Type) where
  | load (m : Mem) (clip : Nat)
  | const (a : α)
  | un (op : Un)
  | bin (op : Bin)
  | tern (op : Tern)
  | store (m : Mem) (bits : Nat)
  deriving DecidableEq, Repr

/-- `ExprInstruction`, expr.h:96-104; `none` is register -1. -/
structure Insn (α : Type) where
  op : Op α
  dst : Option Nat
  src1 : Option Nat
  src2 : Option Nat
  src3 : Option Nat
  deriving DecidableEq, Repr

/-- The instruction of a node, expr.cpp:1484-1501. -/
def insnOf : E α → Insn α
  | .load n m c => ⟨.load m c, n, none, none, none⟩
  | .const n a => ⟨.const a, n, none, none, none⟩
  | .un n o l => ⟨.un o, n, l.vn, none, none⟩
  | .bin n o l r => ⟨.bin o, n, l.vn, r.vn, none⟩
  | .tern n o l a b => ⟨.tern o, n, l.vn, a.vn, b.vn⟩

/-- The visitor in `compile`, expr.cpp:1477-1505, on the pair of `code` and `found`. -/
def emitNode (e : E α) (s : List (Insn α) × List (Option Nat)) : List (Insn α) × List (Option Nat) :=
  if e.vn ∈ s.2 then s else (s.1 ++ [insnOf e], e.vn :: s.2)

/-- The traversal in `compile`, expr.cpp:1477-1505, in postorder. -/
def emitTree : E α → List (Insn α) × List (Option Nat) → List (Insn α) × List (Option Nat)
  | .load n m c, s => emitNode (.load n m c) s
  | .const n a, s => emitNode (.const n a) s
  | .un n o l, s => emitNode (.un n o l) (emitTree l s)
  | .bin n o l r, s => emitNode (.bin n o l r) (emitTree r (emitTree l s))
  | .tern n o l a b, s => emitNode (.tern n o l a b) (emitTree b (emitTree a (emitTree l s)))

/-- Is `r` read by an instruction? The inner loop of `renameRegisters`, expr.cpp:1426-1432. -/
def reads (r : Nat) (i : Insn α) : Bool := decide (i.src1 = some r ∨ i.src2 = some r ∨ i.src3 = some r)

/-- Renaming of one source, expr.cpp:1416-1436: the new register and the list of free registers. -/
def renameSrc (rest : List (Insn α)) (table : Nat → Nat) (free : List Nat) : Option Nat → Option Nat × List Nat
  | none => (none, free)
  | some r =>
    if rest.any (reads r) then (some (table r), free)
    else (some (table r), if table r ∈ free then free else table r :: free)

/-- The least free register: `*freeList.begin()`. -/
def least : List Nat → Option Nat
  | [] => none
  | a :: t => match least t with
    | none => some a
    | some b => some (if a ≤ b then a else b)

/-- `renameRegisters`, expr.cpp:1406-1450. `table` is the identity for registers without entry; `free` is the set
`freeList` in any order. -/
def renameLoop : List (Insn α) → (Nat → Nat) → List Nat → List (Insn α)
  | [], _, _ => []
  | i :: rest, table, free =>
    let a := renameSrc rest table free i.src1
    let b := renameSrc rest table a.2 i.src2
    let c := renameSrc rest table b.2 i.src3
    match i.dst, least c.2 with
    | some d, some r =>
      ⟨i.op, some r, a.1, b.1, c.1⟩ ::
        renameLoop rest (fun x => if x = d then r else table x) (d :: c.2.filter (fun x => x != r))
    | _, _ => ⟨i.op, i.dst, a.1, b.1, c.1⟩ :: renameLoop rest table c.2

/-- `renameRegisters`, expr.cpp:1406-1450. -/
def renameRegisters (code : List (Insn α)) : List (Insn α) := renameLoop code (fun x => x) []

/-- The part of `compile` after the optimizations, expr.cpp:1475-1526. `m` and `bits` describe the output format; the
depth is stored for 16 bit integers only. `code.back()` of an empty vector would be undefined. -/
def generate [DecidableEq α] (e : E α) (m : Mem) (bits : Nat) : Res (List (Insn α)) :=
  let code := (emitTree (applyValueNumbering e) ([], [])).1
  match code.getLast? with
  | none => .ub
  | some l => .ok (renameRegisters (code ++ [⟨.store m (if m = .u16 then bits else 0), none, l.dst, none, none⟩]))

/-- What ends up in the destination. -/
inductive Out (α : Type) where
  /-- an integer sample -/
  | int (n : Int)
  /-- `floatToHalf` of the value -/
  | half (a : α)
  | float (a : α)
  deriving DecidableEq, Repr

/-- `clamp_int`, exprfilter.cpp:85-90. -/
def clampInt (A : Arith α) (x : α) (depth : Nat) : Int :=
  A.lrint (A.min (A.max x (A.ofInt 0)) (A.ofInt (2 ^ depth - 1)))

/-- The stores, exprfilter.cpp:156-159. -/
def storeVal (A : Arith α) (m : Mem) (bits : Nat) (x : α) : Out α :=
  match m with
  | .u8 => .int (clampInt A x 8)
  | .u16 => .int (clampInt A x bits)
  | .f16 => .half x
  | .f32 => .float x

/-- Read a register; outside of the vector is undefined. -/
def getReg (regs : List α) : Option Nat → Res α
  | none => .ub
  | some r => match regs[r]? with
    | some a => .ok a
    | none => .ub

/-- Write a register; outside of the vector is undefined. -/
def setReg (regs : List α) (d : Option Nat) (a : α) : Res (List α) :=
  match d with
  | none => .ub
  | some r => if r < regs.length then .ok (regs.set r a) else .ub

/-- `ExprInterpreter::eval`, exprfilter.cpp:104-163. Falling off the end leaves the destination as it is, which does
not happen for generated code and counts as undefined here. -/
def run (A : Arith α) (px : Mem → Nat → α) : List (Insn α) → List α → Res (Out α × List α)
  | [], _ => .ub
  | i :: rest, regs =>
    match i.op with
    | .load m c => do run A px rest (← setReg regs i.dst (px m c))
    | .const a => do run A px rest (← setReg regs i.dst a)
    | .un o => do
      let x ← getReg regs i.src1
      run A px rest (← setReg regs i.dst (A.un o x))
    | .bin o => do
      let x ← getReg regs i.src1
      let y ← getReg regs i.src2
      run A px rest (← setReg regs i.dst (A.bin o x y))
    | .tern o => do
      let x ← getReg regs i.src1
      let y ← getReg regs i.src2
      let z ← getReg regs i.src3
      run A px rest (← setReg regs i.dst (A.tern o x y z))
    | .store m bits => do
      let x ← getReg regs i.src1
      .ok (storeVal A m bits x, regs)

/-- The constructor `ExprInterpreter`, exprfilter.cpp:95-102: number of registers. -/
def numRegs (code : List (Insn α)) : Nat := code.foldl (fun m i => max m (i.dst.getD 0)) 0 + 1

end VS.Expr
