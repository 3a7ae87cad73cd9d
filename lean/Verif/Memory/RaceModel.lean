import Verif.Memory.Spec

/-!
# Concurrent callers of the frame allocator

The same functions as in `Verif/Memory/Model.lean`, cut at every point where another thread may run:
a section under `m_mutex` is one step, so is each access to an atomic outside of it and each call of
the system allocator.  Any number of threads call in; the schedule is an arbitrary list of (thread,
what it does).
-/

namespace VS.Memory.Race
open VS VS.Memory

/-- What a thread asks for. -/
inductive Req where
  | allocate (size : Nat)
  | deallocate (buf : Nat)
  | setLimit (bytes : Nat)
  | coreFreed
  deriving DecidableEq, Repr

/-- Where a thread is inside of a call.  The flag of the trimming states tells whether it runs for
`deallocate` (which goes on to the self deletion test) or for `set_limit`. -/
inductive Pc where
  /-- outside of any call -/
  | idle
  /-- `allocate_from_system` before `do_allocate`, src/core/memoryuse.cpp:156 -/
  | wantSys (req size : Nat)
  /-- before `m_allocated += size`, src/core/memoryuse.cpp:161 -/
  | got (req : Nat) (b : Block)
  /-- before `deallocate_to_freelist`, src/core/memoryuse.cpp:282 -/
  | freeBig (b : Block)
  /-- before `do_deallocate`, src/core/memoryuse.cpp:196 -/
  | freeSmall (b : Block)
  /-- before `m_allocated -= size`, src/core/memoryuse.cpp:197 -/
  | freeCount (n : Nat)
  /-- before the first read of `m_allocated`, src/core/memoryuse.cpp:212 -/
  | gcA (fromFree : Bool)
  /-- before the first read of `m_freelist_size`, src/core/memoryuse.cpp:212 -/
  | gcB (fromFree : Bool) (a : Nat)
  /-- before the first read of `m_limit`, src/core/memoryuse.cpp:213 -/
  | gcC (fromFree : Bool) (t : Nat)
  /-- at the loop test, src/core/memoryuse.cpp:215 -/
  | gcLoop (fromFree : Bool) (t l : Nat)
  /-- before `do_deallocate`, src/core/memoryuse.cpp:247 -/
  | gcFree (fromFree : Bool) (b : Block) (t l : Nat)
  /-- before the read of `m_core_freed`, src/core/memoryuse.cpp:290 -/
  | chkFreed
  /-- before the read of `m_allocated`, src/core/memoryuse.cpp:290 and 307 -/
  | chkAlloc
  deriving DecidableEq, Repr

/-- The shared allocator with the threads; `live` are the buffers handed out and not passed to
`deallocate` yet, each with its block. -/
structure CMem where
  mem : Mem
  live : List (Block × Nat)
  pcs : List Pc
  deriving DecidableEq, Repr

/-- `n` threads, none in a call. -/
def CMem.new (thr limit n : Nat) : CMem := ⟨Mem.new thr limit, [], List.replicate n .idle⟩

/-- Move thread `i` to a program point. -/
def CMem.goto (c : CMem) (i : Nat) (pc : Pc) : CMem := { c with pcs := c.pcs.set i pc }

/-- The first step of a call. -/
def begin (c : CMem) (i : Nat) : Req → Res CMem
  | .allocate n =>
    let aligned := roundUp ((n + ALIGNMENT) % SZ) ALIGNMENT
    let pageAligned := roundUp aligned 4096
    if pageAligned ≤ c.mem.thr then .ok (c.goto i (.wantSys n aligned))
    else
      match lowerBound pageAligned c.mem.pool with
      | some (p, b, q) =>
        if isGoodFit pageAligned b.size = true then
          .ok { c with mem := { c.mem with pool := p ++ q, poolSize := c.mem.poolSize - b.size,
                                           allocated := c.mem.allocated + b.size },
                       live := (b, n) :: c.live }
        else .ok (c.goto i (.wantSys n pageAligned))
      | none => .ok (c.goto i (.wantSys n pageAligned))
  | .deallocate buf =>
    match header c.mem buf with
    | .ok b =>
      .ok ({ c with live := c.live.eraseP (fun u => u.1.addr + ALIGNMENT = buf) }.goto i
        (if b.size > c.mem.thr then .freeBig b else .freeSmall b))
    | _ => .ub
  | .setLimit n => .ok ({ c with mem := { c.mem with limit := n } }.goto i (.gcA false))
  | .coreFreed => .ok ({ c with mem := { c.mem with coreFreed := true } }.goto i .chkAlloc)

/-- Where a thread goes after trimming. -/
def after (fromFree : Bool) : Pc := if fromFree = true then .chkFreed else .idle

/-- The next step of a thread inside of a call; `choice` is the answer of the system allocator or
the random number, where one is drawn. -/
def resume (c : CMem) (i : Nat) (choice : Nat) : Pc → Res CMem
  | .idle => .ok c
  | .wantSys n size =>
    match sysMalloc c.mem.owned size (some choice) with
    | none => .ok (c.goto i .idle)
    | some b => .ok ({ c with mem := { c.mem with owned := b :: c.mem.owned } }.goto i (.got n b))
  | .got n b =>
    .ok ({ c with mem := { c.mem with allocated := c.mem.allocated + b.size },
                  live := (b, n) :: c.live }.goto i .idle)
  | .freeBig b => .ok ({ c with mem := deallocToPool c.mem b }.goto i (.gcA true))
  | .freeSmall b =>
    match sysFree c.mem b with
    | .ok m => .ok ({ c with mem := m }.goto i (.freeCount b.size))
    | _ => .ub
  | .freeCount n =>
    .ok ({ c with mem := { c.mem with allocated := c.mem.allocated - n } }.goto i .chkFreed)
  | .gcA f => .ok (c.goto i (.gcB f c.mem.allocated))
  | .gcB f a => .ok (c.goto i (.gcC f (a + c.mem.poolSize)))
  | .gcC f t => .ok (c.goto i (.gcLoop f t c.mem.limit))
  | .gcLoop f t l =>
    if t > l then
      if c.mem.pool = [] then .ok (c.goto i (after f))
      else if c.mem.allocated + c.mem.poolSize ≤ c.mem.limit then .ok (c.goto i (after f))
      else
        match c.mem.pool[choice % c.mem.pool.length]? with
        | none => .ub
        | some b =>
          .ok ({ c with mem := { c.mem with
              pool := c.mem.pool.eraseIdx (choice % c.mem.pool.length),
              poolSize := c.mem.poolSize - b.size } }.goto i
            (.gcFree f b (c.mem.allocated + c.mem.poolSize) c.mem.limit))
    else .ok (c.goto i (after f))
  | .gcFree f b t l =>
    match sysFree c.mem b with
    | .ok m => .ok ({ c with mem := m }.goto i (.gcLoop f (t - b.size) l))
    | _ => .ub
  | .chkFreed => .ok (c.goto i (if c.mem.coreFreed = true then .chkAlloc else .idle))
  | .chkAlloc =>
    if c.mem.allocated = 0 then
      match destroy c.mem with
      | .ok m => .ok ({ c with mem := m }.goto i .idle)
      | _ => .ub
    else .ok (c.goto i .idle)

/-- What the scheduler lets a thread do. -/
inductive Act where
  | begin (r : Req)
  | go (choice : Nat)
  deriving DecidableEq, Repr

/-- One step of thread `i`.  Any step of a thread in a call on a deleted allocator is undefined. -/
def cstep (c : CMem) (i : Nat) (act : Act) : Res CMem :=
  match c.pcs[i]?, act with
  | none, _ => .ok c
  | some .idle, .begin r => if c.mem.deleted = true then .ub else begin c i r
  | some _, .begin _ => .ok c
  | some .idle, .go _ => .ok c
  | some pc, .go choice => if c.mem.deleted = true then .ub else resume c i choice pc

/-- A schedule. -/
def crun (c : CMem) : List (Nat × Act) → Res CMem
  | [] => .ok c
  | (i, a) :: t => do
    let c ← cstep c i a
    crun c t

end VS.Memory.Race
