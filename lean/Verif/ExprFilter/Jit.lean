import Verif.ExprFilter.Model

/-!
# The memory accesses of the compiled code of Expr

What the code made by the just-in-time compiler reads and writes: groups of 8 or 16 samples, also behind the end of the rows. What it
computes is left out. src/core/exprfilter.cpp:196-222, src/core/expr/jitcompiler.cpp:65-90, src/core/expr/jitcompiler_x86.cpp.
-/

namespace VS.ExprFilter.Jit
open VS VS.Expr VS.ExprFilter

/-- What `getCPUFeatures` says, src/core/cpufeatures.cpp:93-115. -/
structure Cpu where
  avx2 : Bool
  f : Bool
  cd : Bool
  bw : Bool
  dq : Bool
  vl : Bool

/-- The flag `avx512`, src/core/cpufeatures.cpp:114-115. -/
def Cpu.avx512 (c : Cpu) : Bool := c.f && c.cd && c.bw && c.dq && c.vl

/-- `VSFrame::alignment`, src/core/vscore.cpp:2618-2622. -/
def Cpu.alignment (c : Cpu) : Nat := if c.f then 64 else 32

/-- The three compilers. -/
inductive Tier where
  | xmm | ymm | zmm
  deriving DecidableEq

/-- The choice of the compiler, src/core/expr/jitcompiler.cpp:70-75; `avx2` and `avx512` say if the level permits them. -/
def tier (c : Cpu) (avx2 avx512 : Bool) : Tier :=
  if c.avx512 && avx512 then .zmm
  else if c.avx2 && avx2 then .ymm
  else .xmm

/-- `pixelsPerIteration`, jitcompiler_x86.cpp:977, 1661, 2319. -/
def Tier.lanes : Tier → Nat
  | .xmm => 8
  | .ymm => 8
  | .zmm => 16

/-- The number of pointers that are advanced at once, for 64 and for 32 bit programs, jitcompiler_x86.cpp:952-968, 1636-1652, 2287-2303. -/
def Tier.entries (bits64 : Bool) : Tier → Nat
  | .xmm => if bits64 then 2 else 4
  | _ => if bits64 then 4 else 8

/-- An access relative to a pointer: offset, number of bytes, required alignment. -/
structure Access where
  off : Nat
  size : Nat
  align : Nat

/-- The loads, jitcompiler_x86.cpp:224-277, 1132-1176, 1817-1861. The instructions that need alignment are `movdqa` and `vmovaps`. -/
def loads : Tier → Mem → List Access
  | .xmm, .u8 => [⟨0, 8, 1⟩]
  | .xmm, .u16 => [⟨0, 16, 16⟩]
  | .xmm, .f16 => [⟨0, 8, 1⟩, ⟨8, 8, 1⟩]
  | .xmm, .f32 => [⟨0, 16, 16⟩, ⟨16, 16, 16⟩]
  | .ymm, .u8 => [⟨0, 8, 1⟩]
  | .ymm, .u16 => [⟨0, 16, 1⟩]
  | .ymm, .f16 => [⟨0, 16, 1⟩]
  | .ymm, .f32 => [⟨0, 32, 32⟩]
  | .zmm, .u8 => [⟨0, 16, 1⟩]
  | .zmm, .u16 => [⟨0, 32, 1⟩]
  | .zmm, .f16 => [⟨0, 32, 1⟩]
  | .zmm, .f32 => [⟨0, 64, 64⟩]

/-- The stores, jitcompiler_x86.cpp:299-378, 1197-1251, 1882-1933. -/
def stores : Tier → Mem → List Access
  | .xmm, .u8 => [⟨0, 8, 1⟩]
  | .xmm, .u16 => [⟨0, 16, 16⟩]
  | .xmm, .f16 => [⟨0, 8, 1⟩, ⟨8, 8, 1⟩]
  | .xmm, .f32 => [⟨0, 16, 16⟩, ⟨16, 16, 16⟩]
  | .ymm, .u8 => [⟨0, 8, 1⟩]
  | .ymm, .u16 => [⟨0, 16, 16⟩]
  | .ymm, .f16 => [⟨0, 16, 1⟩]
  | .ymm, .f32 => [⟨0, 32, 32⟩]
  | .zmm, .u8 => [⟨0, 16, 1⟩]
  | .zmm, .u16 => [⟨0, 32, 1⟩]
  | .zmm, .f16 => [⟨0, 32, 1⟩]
  | .zmm, .f32 => [⟨0, 64, 64⟩]

/-- Add the offsets to the pointers, jitcompiler_x86.cpp:952-968, 1636-1652, 2287-2303; `n` is the number of clips. The arrays have
`P.length` and `O.length` elements. -/
def advance (entries n : Nat) (O P : List Nat) : Res (List Nat) :=
  if entries * (n / entries + 1) > P.length ∨ entries * (n / entries + 1) > O.length then .ub
  else .ok ((List.range P.length).map fun i =>
    if i < entries * (n / entries + 1) then P.getD i 0 + O.getD i 0 else P.getD i 0)

/-- The loop `wloop`: the pointers in each of the iterations, jitcompiler_x86.cpp:946-971. The test is at the end, so that 0 iterations
would be endless; that counts as undefined. -/
def wloop (entries n : Nat) (O : List Nat) : Nat → List Nat → Res (List (List Nat))
  | 0, _ => .ub
  | k + 1, P => do
    let P' ← advance entries n O P
    if k = 0 then .ok [P]
    else do
      let l ← wloop entries n O k P'
      .ok (P :: l)

/-- `MAX_EXPR_INPUTS + 1` rounded up to a multiple of 8, exprfilter.cpp:190 and 217. -/
def slots : Nat := (26 + 1 + 7) / 8 * 8

/-- An array of `slots` elements that begins with `l`, exprfilter.cpp:190, 217-220. -/
def padded (l : List Nat) : List Nat := (List.range slots).map fun i => l.getD i 0

/-- The iterations for a row, exprfilter.cpp:198-222: `rows` are the addresses of the row in the result and in the clips, `bytes` the
sizes of their samples. -/
def line (t : Tier) (bits64 : Bool) (w : Nat) (rows bytes : List Nat) : Res (List (List Nat)) :=
  wloop (t.entries bits64) (rows.length - 1) (padded (bytes.map (· * t.lanes))) ((w + t.lanes - 1) / t.lanes) (padded rows)

end VS.ExprFilter.Jit
