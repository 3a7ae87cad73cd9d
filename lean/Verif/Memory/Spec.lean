import Verif.Memory.Model

/-!
# What a user of the frame allocator knows

A user sees the buffers handed out, the sizes asked for, the limit set last and whether the core is
gone.  `Reach` are the states and user views after any history of calls that keeps the contract of
the allocator.
-/

namespace VS.Memory
open VS

/-- A buffer handed out and not yet returned: the pointer and the size asked for. -/
structure Buf where
  ptr : Nat
  req : Nat
  deriving DecidableEq, Repr

/-- The view of the user. -/
structure View where
  live : List Buf
  limit : Nat
  freed : Bool
  deriving DecidableEq, Repr

/-- The view after a call with its answer. -/
def View.next (v : View) : Op → Option Nat → View
  | .allocate size _, some p => { v with live := ⟨p, size⟩ :: v.live }
  | .allocate _ _, none => v
  | .deallocate p _, _ => { v with live := v.live.eraseP (fun b => b.ptr = p) }
  | .setLimit n _, _ => { v with limit := n }
  | .coreFreed, _ => { v with freed := true }

/-- The contract of the callers: sizes below the asserted bound (src/core/memoryuse.cpp:258), only
outstanding buffers are returned, and once the core is gone buffers are only returned (one at a
time, include/VapourSynth4.h:492). -/
def View.Legal (v : View) : Op → Prop
  | .allocate size _ => size < SZ - 1 - 4095 - 64 ∧ v.freed = false
  | .deallocate p _ => ∃ b ∈ v.live, b.ptr = p
  | .setLimit _ _ => v.freed = false
  | .coreFreed => v.freed = false

/-- States reachable from a new allocator by calls that keep the contract. -/
inductive Reach (thr limit : Nat) : Mem → View → Prop
  | new : Reach thr limit (Mem.new thr limit) ⟨[], limit, false⟩
  | call {m m' : Mem} {v : View} {op : Op} {a : Option Nat} :
      Reach thr limit m v → v.Legal op → step m op = .ok (m', a) → Reach thr limit m' (v.next op a)

/-- The least multiple of `k` that is at least `n`. -/
def ceilTo (n k : Nat) : Nat := (n + (k - 1)) / k * k

/-- Total size of some blocks. -/
def total : List Block → Nat
  | [] => 0
  | b :: t => b.size + total t

/-- The block a buffer lives in: its header is the 64 bytes in front of the buffer. -/
def holds (b : Block) (u : Buf) : Prop := u.ptr = b.addr + 64 ∧ u.ptr + u.req ≤ b.addr + b.size

/-- No byte belongs to both `[p, p + m)` and `[q, q + n)`. -/
def apart (p m q n : Nat) : Prop := ∀ x, ¬ (p ≤ x ∧ x < p + m ∧ q ≤ x ∧ x < q + n)

end VS.Memory
