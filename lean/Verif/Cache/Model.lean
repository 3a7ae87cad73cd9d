import Verif.Base.C

/-!
# The frame cache of a node

Model of `VSNode::VSCache` (src/core/vscore.h:657-877, src/core/vscore.cpp:2465-2604) and of the
cache switches of `VSNode` (src/core/vscore.cpp:849-891, 990-1054, 1107-1114, 1152-1180).

The doubly linked list threaded through the hash table is modelled as it is; a `Node *` is the
key of the node it points to.  Following a pointer to a node that is not in the table is `ub`.

Simplifications:
* calls are atomic (the code holds `cacheMutex`);
* a frame is an identity and its byte size, which does not change while it is cached;
* byte counts and the statistics `hits`, `nearMiss`, `farMiss`, `currentSize`, `historySize` are
  unbounded, and the byte budget `SIZE_MAX` means no limit (`none`);
* `assert`s are compiled out.
-/

namespace VS.Cache
open VS

/-- A frame, as far as the cache sees it. -/
structure Frame where
  id : Nat
  bytes : Nat
  deriving DecidableEq, Repr

/-- `VSCache::Node`, src/core/vscore.h:659-666. -/
structure Node where
  frame : Option Frame
  prev : Option Int
  next : Option Int
  deriving DecidableEq, Repr

/-- `VSCache`, src/core/vscore.h:668-697. -/
structure Cache where
  first : Option Int
  weak : Option Int
  last : Option Int
  hash : Int → Option Node
  maxSize : Int
  currentSize : Int
  maxHistory : Int
  historySize : Int
  fixedSize : Bool
  hits : Int
  nearMiss : Int
  farMiss : Int
  currentBytes : Nat
  userSize : Int
  lastActivity : Nat

/-- The default constructed cache, src/core/vscore.h:801 and src/core/vscore.cpp:2489-2492. -/
def Cache.new : Cache :=
  ⟨none, none, none, fun _ => none, 20, 0, 20, 0, false, 0, 0, 0, 0, 0, 0⟩

/-- Follow a pointer. -/
def node (c : Cache) (k : Int) : Res Node :=
  match c.hash k with
  | some n => .ok n
  | none => .ub

/-- Change the node a pointer points to. -/
def putNode (c : Cache) (k : Int) (n : Node) : Cache :=
  { c with hash := fun x => if x = k then some n else c.hash x }

/-- `p->nextNode = v` if `p` is not null. -/
def setNext (c : Cache) (p v : Option Int) : Res Cache :=
  match p with
  | none => .ok c
  | some k => do
    let n ← node c k
    .ok (putNode c k { n with next := v })

/-- `p->prevNode = v` if `p` is not null. -/
def setPrev (c : Cache) (p v : Option Int) : Res Cache :=
  match p with
  | none => .ok c
  | some k => do
    let n ← node c k
    .ok (putNode c k { n with prev := v })

/-- The bytes of a node, `subtractFrameBytes`, src/core/vscore.h:698-704 (result). -/
def frameBytes (n : Node) : Nat :=
  match n.frame with
  | some f => f.bytes
  | none => 0

/-- `weakpoint = weakpoint->nextNode` if it points to this node, src/core/vscore.h:707-708. -/
def weakPast (c : Cache) (k : Int) (n : Node) : Cache :=
  if c.weak = some k then { c with weak := n.next } else c

/-- `if (last == &n) last = n.prevNode`, src/core/vscore.h:716-717. -/
def lastPast (c : Cache) (k : Int) (n : Node) : Cache :=
  if c.last = some k then { c with last := n.prev } else c

/-- `if (first == &n) first = n.nextNode`, src/core/vscore.h:719-720. -/
def firstPast (c : Cache) (k : Int) (n : Node) : Cache :=
  if c.first = some k then { c with first := n.next } else c

/-- The counters of `unlink`, src/core/vscore.h:722-727. -/
def uncount (c : Cache) (n : Node) : Cache :=
  match n.frame with
  | some f => { c with currentBytes := c.currentBytes - f.bytes, currentSize := c.currentSize - 1 }
  | none => { c with historySize := c.historySize - 1 }

/-- `hash.erase(n.key)`, src/core/vscore.h:729. -/
def eraseNode (c : Cache) (k : Int) : Cache :=
  { c with hash := fun x => if x = k then none else c.hash x }

/-- `VSCache::unlink`, src/core/vscore.h:706-730. -/
def unlink (c : Cache) (k : Int) : Res Cache := do
  let n ← node c k
  let c ← setNext (weakPast c k n) n.prev n.next
  let c ← setPrev c n.next n.prev
  .ok (eraseNode (uncount (firstPast (lastPast c k n) k n) n) k)

/-- `VSCache::remove`, src/core/vscore.cpp:2498-2507. -/
def remove (c : Cache) (k : Int) : Res Cache :=
  match c.hash k with
  | none => .ok c
  | some _ => unlink c k

/-- Drop the frame of a node, keeping the node as history: `subtractFrameBytes` and
`frame.reset()`, src/core/vscore.h:769-770 and src/core/vscore.cpp:2546-2547. -/
def dropFrame (c : Cache) (k : Int) : Res (Cache × Nat) := do
  let n ← node c k
  .ok ({ putNode c k { n with frame := none } with
    currentBytes := c.currentBytes - frameBytes n }, frameBytes n)

/-- Where the weak point moves, src/core/vscore.cpp:2540-2543. -/
def nextWeak (c : Cache) : Res (Option Int) :=
  match c.weak with
  | none => .ok c.last
  | some k => do
    let n ← node c k
    .ok n.prev

/-- Is the byte condition of the loop true?, src/core/vscore.cpp:2538. -/
def underBudget (budget : Option Nat) (freed : Nat) : Bool :=
  match budget with
  | none => true
  | some b => freed < b

/-- The body of the first loop of `evictFrames`, src/core/vscore.cpp:2540-2551: the new cache and
the bytes freed. -/
def evictOne (c : Cache) : Res (Cache × Nat) := do
  let w ← nextWeak c
  match w with
  | none =>
    .ok ({ c with weak := none, currentSize := c.currentSize - 1, historySize := c.historySize + 1 }, 0)
  | some k => do
    let p ← dropFrame { c with weak := some k } k
    .ok ({ p.1 with currentSize := p.1.currentSize - 1, historySize := p.1.historySize + 1 }, p.2)

/-- The first loop of `evictFrames`, src/core/vscore.cpp:2538-2552.  `fuel` is the number of
turns until `currentSize` reaches `maxCount`. -/
def evictLoop (maxCount : Int) (budget : Option Nat) : Nat → Cache → Nat → Res (Cache × Nat)
  | 0, c, freed => .ok (c, freed)
  | fuel + 1, c, freed =>
    if c.currentSize > maxCount ∧ underBudget budget freed = true then do
      let p ← evictOne c
      evictLoop maxCount budget fuel p.1 (freed + p.2)
    else .ok (c, freed)

/-- The second loop of `evictFrames`, src/core/vscore.cpp:2555-2556; it must stop within `fuel`
turns, not stopping counts as `ub`. -/
def historyLoop : Nat → Cache → Res Cache
  | fuel, c =>
    match c.last with
    | none => .ok c
    | some k =>
      if c.historySize > c.maxHistory then
        match fuel with
        | 0 => .ub
        | fuel + 1 => do
          let c ← unlink c k
          historyLoop fuel c
      else .ok c

/-- `VSCache::evictFrames`, src/core/vscore.cpp:2534-2559. -/
def evictFrames (c : Cache) (maxCount : Int) (budget : Option Nat) : Res (Cache × Nat) := do
  let p ← evictLoop maxCount budget (c.currentSize - maxCount).toNat c 0
  let c ← historyLoop (p.1.historySize - p.1.maxHistory).toNat p.1
  .ok (c, p.2)

/-- Link the new first node, src/core/vscore.cpp:2515-2527. -/
def pushFront (c : Cache) (k : Int) (f : Frame) : Res Cache := do
  let c := { c with
    hash := fun x => if x = k then some ⟨some f, none, none⟩ else c.hash x,
    currentSize := c.currentSize + 1,
    currentBytes := c.currentBytes + f.bytes }
  let c ← setPrev c c.first (some k)
  let n ← node c k
  let c := putNode c k { n with next := c.first }
  .ok { c with first := some k, last := if c.last = none then some k else c.last }

/-- `VSCache::insert`, src/core/vscore.cpp:2510-2532. -/
def insert (c : Cache) (k : Int) (f : Frame) : Res Cache := do
  let c ← remove c k
  let c ← pushFront c k f
  let p ← evictFrames c c.maxSize none
  .ok p.1

/-- Move a node to the front, src/core/vscore.h:751-766. -/
def moveFront (c : Cache) (k : Int) (n : Node) : Res Cache :=
  if c.first = some k then .ok c
  else do
    let c ← setNext c n.prev n.next
    let c ← setPrev c n.next n.prev
    let c := lastPast c k n
    let n' ← node c k
    let c := putNode c k { n' with prev := none, next := c.first }
    if c.first = none then .ub
    else do
      let c ← setPrev c c.first (some k)
      .ok { c with first := some k }

/-- Drop the frame of the node the weak point has moved to, src/core/vscore.h:768-778. -/
def dropAt (c : Cache) (k : Option Int) : Res Cache :=
  match k with
  | none => .ub
  | some k => do
    let p ← dropFrame { c with weak := some k } k
    .ok p.1

/-- The rebalancing of `relink`, src/core/vscore.h:768-778. -/
def rebalance (c : Cache) (wasWeak : Bool) : Res Cache :=
  match c.weak with
  | none => if c.currentSize > c.maxSize then dropAt c c.last else .ok c
  | some w =>
    if wasWeak = true ∨ c.historySize > c.maxHistory then do
      let n ← node c w
      dropAt c n.prev
    else .ok c

/-- `VSCache::object`/`relink`, src/core/vscore.h:732-784, src/core/vscore.cpp:2494-2496. -/
def object (c : Cache) (k : Int) : Res (Cache × Option Frame) :=
  match c.hash k with
  | none => .ok ({ c with farMiss := c.farMiss + 1 }, none)
  | some n =>
    match n.frame with
    | none => .ok ({ c with nearMiss := c.nearMiss + 1 }, none)
    | some _ => do
      let c1 ← moveFront (weakPast { c with hits := c.hits + 1 } k n) k n
      let c2 ← rebalance c1 (c.weak = some k)
      let n2 ← node c2 k
      .ok (c2, n2.frame)

/-- `setMaxFrames`, src/core/vscore.h:805-808. -/
def setMaxFrames (c : Cache) (m : Int) : Res Cache := do
  let p ← evictFrames { c with maxSize := m } m none
  .ok p.1

/-- `setMaxHistory`, src/core/vscore.h:814-817. -/
def setMaxHistory (c : Cache) (m : Int) : Res Cache := do
  let p ← evictFrames { c with maxHistory := m } c.maxSize none
  .ok p.1

/-- `clear` with `clearStats`, src/core/vscore.h:831-846. -/
def clear (c : Cache) : Cache :=
  { c with hash := fun _ => none, first := none, last := none, weak := none, currentSize := 0,
           historySize := 0, currentBytes := 0, hits := 0, nearMiss := 0, farMiss := 0 }

/-- `clearStats`, src/core/vscore.h:842-846. -/
def clearStats (c : Cache) : Cache := { c with hits := 0, nearMiss := 0, farMiss := 0 }

/-- `reSeedSize`, src/core/vscore.h:865. -/
def reSeedSize (c : Cache) : Int := max 20 c.userSize

/-- `setUserMaxFrames`, src/core/vscore.h:867-870. -/
def setUserMaxFrames (c : Cache) (m : Int) : Res Cache := setMaxFrames { c with userSize := m } m

/-- `dropLRUFrames`, src/core/vscore.cpp:2560-2568. -/
def dropLRUFrames (c : Cache) (maxBytes : Nat) : Res (Cache × Nat) := do
  let p ← evictFrames c 0 (some maxBytes)
  if p.1.maxSize > reSeedSize p.1 then
    .ok ({ p.1 with maxSize := max (reSeedSize p.1) p.1.currentSize }, p.2)
  else .ok p

/-- `VSCache::CacheAction`, src/core/vscore.h:791-796. -/
inductive Action where
  | grow | noChange | shrink | clear
  deriving DecidableEq, Repr

/-- `recommendSize`, src/core/vscore.cpp:2465-2487. -/
def recommendSize (c : Cache) : Cache × Action :=
  let total := c.hits + c.nearMiss + c.farMiss
  if total = 0 then (c, .clear)
  else if total < 30 then (c, .noChange)
  else if c.nearMiss * 20 ≥ total then (clearStats c, .grow)
  else if c.nearMiss = 0 ∧ c.hits = 0 then (clearStats c, .shrink)
  else (clearStats c, .noChange)

/-- The switch of `adjustSize`, src/core/vscore.cpp:2582-2597; `getMaxFrames() + 2` is `int`
arithmetic. -/
def applyAction (c : Cache) (comfortable : Bool) : Action → Res Cache
  | .clear => setMaxFrames (clear c) (max (c.maxSize - 2) c.userSize)
  | .grow => if comfortable = true then do
      let m ← i32 (c.maxSize + 2)
      setMaxFrames c m
    else .ok c
  | .shrink => setMaxFrames c (max (c.maxSize - 1) c.userSize)
  | .noChange => .ok c

/-- Keep the history as long as the cache, src/core/vscore.cpp:2601-2602. -/
def growHistory (c : Cache) : Res Cache :=
  if c.maxHistory < c.maxSize then setMaxHistory c c.maxSize else .ok c

/-- `uint64_t` subtraction, src/core/vscore.cpp:2578. -/
def sub64 (a b : Nat) : Nat := (a + 18446744073709551616 - b) % 18446744073709551616

/-- `adjustSize` once it is known that it does not return early, src/core/vscore.cpp:2581-2602. -/
def adjustNow (c : Cache) (comfortable : Bool) : Res Cache := do
  let p := recommendSize c
  let c ← applyAction p.1 comfortable p.2
  growHistory c

/-- `adjustSize`, src/core/vscore.cpp:2570-2604; the delay constant is 3
(src/core/vscore.h:696). -/
def adjustSize (c : Cache) (comfortable : Bool) (ext : Nat) : Res Cache :=
  if c.fixedSize = true then .ok c
  else if c.hits + c.nearMiss + c.farMiss > 0 then adjustNow { c with lastActivity := ext } comfortable
  else if sub64 ext c.lastActivity < 3 then .ok c
  else adjustNow c comfortable

/-! ## All operations -/

/-- The operations of a cache.  Sizes given by a caller are never negative
(src/core/vscore.cpp:1042-1045). -/
inductive Op where
  | insert (k : Int) (f : Frame)
  | lookup (k : Int)
  | setMaxFrames (m : Nat)
  | setUserMaxFrames (m : Nat)
  | resetSizeTuning
  | setMaxHistory (m : Nat)
  | setFixedSize (b : Bool)
  | clear
  | adjustSize (comfortable : Bool) (ext : Nat)
  | dropLRUFrames (maxBytes : Nat)
  deriving DecidableEq, Repr

/-- One operation; the result is the frame found by a lookup. -/
def step (c : Cache) : Op → Res (Cache × Option Frame)
  | .insert k f => do let c ← insert c k f; .ok (c, none)
  | .lookup k => object c k
  | .setMaxFrames m => do let c ← setMaxFrames c m; .ok (c, none)
  | .setUserMaxFrames m => do let c ← setUserMaxFrames c m; .ok (c, none)
  | .resetSizeTuning => .ok ({ c with userSize := 0 }, none)
  | .setMaxHistory m => do let c ← setMaxHistory c m; .ok (c, none)
  | .setFixedSize b => .ok ({ c with fixedSize := b }, none)
  | .clear => .ok (clear c, none)
  | .adjustSize b e => do let c ← adjustSize c b e; .ok (c, none)
  | .dropLRUFrames m => do let p ← dropLRUFrames c m; .ok (p.1, none)

/-- A history: all operations with their results, oldest first. -/
def run (c : Cache) : List Op → Res (Cache × List (Option Frame))
  | [] => .ok (c, [])
  | op :: t => do
    let p ← step c op
    let q ← run p.1 t
    .ok (q.1, p.2 :: q.2)

end VS.Cache
