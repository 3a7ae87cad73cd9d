import Verif.Base.C

/-!
# Memory as seen by the pixel filters

Filters get raw pointers to the rows of a plane and step through memory with strides that may be negative. A block of
memory is its size and its bytes; touching anything outside is undefined behaviour.
-/

namespace VS.Pix
open VS

/-- A block of memory. -/
structure Buf where
  size : Nat
  byte : Nat → Nat

/-- `memcpy(dst + d, src + s, n)` between different blocks. -/
def memcpy (dst : Buf) (d : Int) (src : Buf) (s : Int) (n : Nat) : Res Buf :=
  if 0 ≤ d ∧ d + n ≤ dst.size ∧ 0 ≤ s ∧ s + n ≤ src.size then
    .ok ⟨dst.size, fun i => if d ≤ i ∧ (i : Int) < d + n then src.byte ((i : Int) - d + s).toNat else dst.byte i⟩
  else .ub

/-- Byte `k` of a number in memory (little endian). -/
def leByte (v k : Nat) : Nat := v / 256 ^ k % 256

/-- `vs_memset<T>(dst + d, v, n)`, src/core/filtershared.h:184-188, with `sizeof(T) = bps`. -/
def memset (dst : Buf) (d : Int) (bps v n : Nat) : Res Buf :=
  if 0 ≤ d ∧ d + (n * bps : Nat) ≤ dst.size then
    .ok ⟨dst.size, fun i =>
      if d ≤ i ∧ (i : Int) < d + (n * bps : Nat) then leByte v (((i : Int) - d).toNat % bps) else dst.byte i⟩
  else .ub

/-- A loop `for (i = start; n more turns; i += step)`. -/
def forFrom {σ : Type} (f : Nat → σ → Res σ) (step : Nat) : Nat → Nat → σ → Res σ
  | _, 0, b => .ok b
  | i, n + 1, b => do forFrom f step (i + step) n (← f i b)

/-- A loop `for (i = 0; i < n; i++)`. -/
def forN {σ : Type} (f : Nat → σ → Res σ) (n : Nat) (b : σ) : Res σ := forFrom f 1 0 n b

/-- `bitblt(dst + d, dstStride, src + s, srcStride, row, height)`, include/VSHelper4.h:185-200. The pointers of row `y`
are given by their distance instead of being moved along. -/
def bitblt (dst : Buf) (d dstStride : Int) (src : Buf) (s srcStride : Int) (row height : Nat) : Res Buf :=
  if height ≠ 0 then
    if srcStride = dstStride ∧ srcStride = row then memcpy dst d src s (row * height)
    else forN (fun y b => memcpy b (d + y * dstStride) src (s + y * srcStride) row) height dst
  else .ok dst

end VS.Pix
