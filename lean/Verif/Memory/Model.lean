import Verif.Base.C

/-!
# The frame buffer allocator

Model of `vs::MemoryUse` (src/core/memoryuse.h:34-150, src/core/memoryuse.cpp).

The system allocator (`vsh_aligned_malloc`) is an environment: every call of `allocate` carries the
address it would return, which is used only if it is a legal answer (64-aligned, not null, disjoint
from every block not yet given back); any other choice stands for failure.  The random choices of
the trimming loop are an arbitrary stream of numbers.

Simplifications:
* each public call is atomic (the micro steps of concurrent callers are modelled separately in
  `Verif/Memory/Race.lean`);
* the byte counters are unbounded: they are sums of the sizes of disjoint blocks of memory;
* a block header is never overwritten, so the size of a block is that of the block;
* the per-thread call tracking (`s_call_delta`, `s_call_peak`) and debug statistics are left out.
-/

namespace VS.Memory
open VS

/-- `SIZE_MAX + 1`. -/
def SZ : Nat := 18446744073709551616

/-- `SYSTEM_ALLOCATOR_THRESHOLD` of a build with a frame pool, src/core/memoryuse.cpp:32; without
one it is `SIZE_MAX`.  The model takes any threshold. -/
def POOL_THRESHOLD : Nat := 1048576

/-- `ALIGNMENT`, src/core/memoryuse.cpp:36. -/
def ALIGNMENT : Nat := 64

/-- `(x + (n - 1)) & ~(n - 1)` in `size_t` for a power of two `n`, src/core/memoryuse.cpp:260-261. -/
def roundUp (x n : Nat) : Nat :=
  let y := (x + (n - 1)) % SZ
  y - y % n

/-- A block obtained from the system: `[addr, addr + size)`, its header holding `size`. -/
structure Block where
  addr : Nat
  size : Nat
  deriving DecidableEq, Repr

/-- `MemoryUse`, src/core/memoryuse.h:34-70; `thr` is the compile time pool threshold, `pool` is `m_freelist` in iteration order and `owned` are the blocks obtained from
the system and not given back. -/
structure Mem where
  pool : List Block
  allocated : Nat
  poolSize : Nat
  limit : Nat
  coreFreed : Bool
  owned : List Block
  deleted : Bool
  thr : Nat
  deriving DecidableEq, Repr

/-- `MemoryUse::MemoryUse` with the limit it computes from the amount of RAM,
src/core/memoryuse.cpp:84-96. -/
def Mem.new (thr limit : Nat) : Mem := ⟨[], 0, 0, limit, false, [], false, thr⟩

/-- `is_good_fit`, src/core/memoryuse.cpp:40-45. -/
def isGoodFit (request allocated : Nat) : Bool := allocated - request ≤ (request / 8) * 1

/-- Do two blocks overlap? -/
def disjoint (a b : Block) : Bool := a.addr + a.size ≤ b.addr || b.addr + b.size ≤ a.addr

/-- The answer of the system allocator, see above. -/
def sysMalloc (owned : List Block) (size : Nat) (choice : Option Nat) : Option Block :=
  match choice with
  | none => none
  | some a =>
    if 0 < a ∧ a % 64 = 0 ∧ owned.all (disjoint ⟨a, size⟩) = true then some ⟨a, size⟩ else none

/-- `allocate_from_system`, src/core/memoryuse.cpp:147-164. -/
def allocFromSystem (m : Mem) (size : Nat) (choice : Option Nat) : Mem × Option Nat :=
  match sysMalloc m.owned size choice with
  | none => (m, none)
  | some b => ({ m with owned := b :: m.owned, allocated := m.allocated + size },
               some (b.addr + ALIGNMENT))

/-- `m_freelist.lower_bound(size)`: the first block at least that large with what precedes and
follows it, src/core/memoryuse.cpp:170. -/
def lowerBound (size : Nat) : List Block → Option (List Block × Block × List Block)
  | [] => none
  | b :: t =>
    if b.size < size then
      match lowerBound size t with
      | none => none
      | some (p, c, q) => some (b :: p, c, q)
    else some ([], b, t)

/-- `allocate_from_freelist`, src/core/memoryuse.cpp:166-185. -/
def allocFromPool (m : Mem) (size : Nat) : Option (Mem × Nat) :=
  match lowerBound size m.pool with
  | none => none
  | some (p, b, q) =>
    if isGoodFit size b.size = true then
      some ({ m with pool := p ++ q, poolSize := m.poolSize - b.size,
                     allocated := m.allocated + b.size }, b.addr + ALIGNMENT)
    else none

/-- `allocate`, src/core/memoryuse.cpp:256-269. -/
def allocate (m : Mem) (size : Nat) (choice : Option Nat) : Mem × Option Nat :=
  let aligned := roundUp ((size + ALIGNMENT) % SZ) ALIGNMENT
  let pageAligned := roundUp aligned 4096
  if pageAligned ≤ m.thr then allocFromSystem m aligned choice
  else
    match allocFromPool m pageAligned with
    | some (m', p) => (m', some p)
    | none => allocFromSystem m pageAligned choice

/-- `m_freelist.emplace(size, ptr)`: after the blocks of the same size,
src/core/memoryuse.cpp:204. -/
def emplace (b : Block) : List Block → List Block
  | [] => [b]
  | c :: t => if c.size ≤ b.size then c :: emplace b t else b :: c :: t

/-- Give a block back to the system; giving back one it does not own is undefined. -/
def sysFree (m : Mem) (b : Block) : Res Mem :=
  if b ∈ m.owned then .ok { m with owned := m.owned.erase b } else .ub

/-- One turn of the trimming loop: remove block `i` of the pool, src/core/memoryuse.cpp:230-248. -/
def gcOne (m : Mem) (i : Nat) : Res Mem :=
  match m.pool[i]? with
  | none => .ub
  | some b => sysFree { m with pool := m.pool.eraseIdx i, poolSize := m.poolSize - b.size } b

/-- The loop of `gc_freelist`, src/core/memoryuse.cpp:215-253; every turn shortens the pool, so its
length bounds the number of turns. -/
def gcLoop : Nat → Mem → List Nat → Res Mem
  | 0, m, _ => .ok m
  | fuel + 1, m, choices =>
    if m.allocated + m.poolSize > m.limit then
      if m.pool = [] then .ok m
      else do
        let m ← gcOne m (choices.headD 0 % m.pool.length)
        gcLoop fuel m choices.tail
    else .ok m

/-- `gc_freelist`, src/core/memoryuse.cpp:210-254. -/
def gc (m : Mem) (choices : List Nat) : Res Mem := gcLoop m.pool.length m choices

/-- `do_deallocate` of every pooled block, src/core/memoryuse.cpp:107-116. -/
def freeAll : List Block → Mem → Res Mem
  | [], m => .ok m
  | b :: t, m => do
    let m ← sysFree m b
    freeAll t m

/-- `delete this`, src/core/memoryuse.cpp:98-128; what is left of the object is never looked at. -/
def destroy (m : Mem) : Res Mem := do
  let m ← freeAll m.pool m
  .ok { m with pool := [], poolSize := 0, deleted := true }

/-- The self deletion test, src/core/memoryuse.cpp:290-291 and 307-308. -/
def maybeDestroy (m : Mem) : Res Mem :=
  if m.coreFreed = true ∧ m.allocated = 0 then destroy m else .ok m

/-- Read the header in front of a buffer, src/core/memoryuse.cpp:275-279. -/
def header (m : Mem) (buf : Nat) : Res Block :=
  match m.owned.find? (fun b => b.addr + ALIGNMENT = buf) with
  | some b => .ok b
  | none => .ub

/-- `deallocate_to_freelist`, src/core/memoryuse.cpp:201-208. -/
def deallocToPool (m : Mem) (b : Block) : Mem :=
  { m with pool := emplace b m.pool, poolSize := m.poolSize + b.size,
           allocated := m.allocated - b.size }

/-- `deallocate_to_system`, src/core/memoryuse.cpp:187-199. -/
def deallocToSystem (m : Mem) (b : Block) : Res Mem := do
  let m ← sysFree m b
  .ok { m with allocated := m.allocated - b.size }

/-- The body of `deallocate` before the self deletion, src/core/memoryuse.cpp:281-286. -/
def release (m : Mem) (b : Block) (choices : List Nat) : Res Mem :=
  if b.size > m.thr then gc (deallocToPool m b) choices else deallocToSystem m b

/-- `deallocate`, src/core/memoryuse.cpp:271-292. -/
def deallocate (m : Mem) (buf : Nat) (choices : List Nat) : Res Mem := do
  let b ← header m buf
  let m ← release m b choices
  maybeDestroy m

/-- `set_limit`, src/core/memoryuse.cpp:294-299. -/
def setLimit (m : Mem) (bytes : Nat) (choices : List Nat) : Res Mem :=
  gc { m with limit := bytes } choices

/-- `on_core_freed`, src/core/memoryuse.cpp:301-309. -/
def onCoreFreed (m : Mem) : Res Mem := maybeDestroy { m with coreFreed := true }

/-- A public call together with the choices of its environment. -/
inductive Op where
  | allocate (size : Nat) (choice : Option Nat)
  | deallocate (buf : Nat) (choices : List Nat)
  | setLimit (bytes : Nat) (choices : List Nat)
  | coreFreed
  deriving DecidableEq, Repr

/-- One call; the answer is the buffer of `allocate`.  Calling anything on a deleted allocator is
undefined. -/
def step (m : Mem) (op : Op) : Res (Mem × Option Nat) :=
  if m.deleted = true then .ub
  else match op with
    | .allocate size choice => .ok (allocate m size choice)
    | .deallocate buf choices => do
      let m ← deallocate m buf choices
      .ok (m, none)
    | .setLimit bytes choices => do
      let m ← setLimit m bytes choices
      .ok (m, none)
    | .coreFreed => do
      let m ← onCoreFreed m
      .ok (m, none)

/-- A history of calls with their answers. -/
def run (m : Mem) : List Op → Res (Mem × List (Option Nat))
  | [] => .ok (m, [])
  | op :: t => do
    let p ← step m op
    let q ← run p.1 t
    .ok (q.1, p.2 :: q.2)

end VS.Memory
