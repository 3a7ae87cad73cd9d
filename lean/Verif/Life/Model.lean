import Verif.Base.Sum

/-!
# How filters and the core are freed

`VSNode::add_ref` and `release` (src/core/vscore.h:927-936), `~VSNode` (src/core/vscore.cpp:836-847),
`destroyFilterInstance` (1949-1974), `filterInstanceCreated` and `filterInstanceDestroyed` (1931-1940),
`freeCore` (2091-2109).

Any number of threads run at the same time.  A step of a thread is what lies between two atomic accesses to
reference counts.  The call stack of each thread is explicit, so that its depth can be talked about.

A free function of a filter gives back the references kept in its instance data, in any order, and may do
whatever other user code may do.  A filter without free function keeps no references in its data.

Not modelled: caches and consumer lists (see the cache model), filters whose constructor throws, functions,
the waiting for running requests in `freeCore`, the messages it logs.
-/

namespace VS.Life

/-- Change one value of a function. -/
def upd {α : Type} (f : Nat → α) (i : Nat) (x : α) : Nat → α := fun j => if j = i then x else f j

structure Node where
  /-- `refcount` -/
  rc : Nat
  /-- the references in `dependencies` -/
  deps : List Nat
  /-- the references the instance data holds -/
  data : List Nat
  /-- `freeFunc` is not null -/
  hasFree : Bool
  /-- `filterInstanceDestroyed` was called for it -/
  gone : Bool

inductive Event where
  /-- a filter was created: the nodes it depends on, the references its data holds, whether it has a free
  function -/
  | created (c : Nat) (deps data : List Nat) (hasFree : Bool)
  /-- the free function of a filter was called -/
  | freed (c : Nat)
  /-- the user called `freeCore` -/
  | coreReleased
  /-- the core was deleted -/
  | coreDeleted
  deriving DecidableEq

/-- What the threads share. -/
structure Heap where
  node : Nat → Node
  next : Nat
  /-- the references that user code holds -/
  ext : Nat → Nat
  /-- `numFilterInstances` -/
  inst : Nat
  coreFreed : Bool
  /-- `delete this` was called -/
  coreGone : Bool
  /-- freed memory was used -/
  ub : Bool
  trace : List Event

inductive Frame where
  /-- `release`, about to count down -/
  | rel (c : Nat)
  /-- `~VSNode` with the dependencies not yet released -/
  | dtor (c : Nat) (ds : List Nat)
  /-- the loop in `destroyFilterInstance` -/
  | drain
  /-- the free function of `c` with the references not yet given back -/
  | free (c : Nat) (ds : List Nat)

/-- `freeDepth` and `nodeFreeList` are thread local; the first frame is the innermost. -/
structure Thread where
  stack : List Frame
  depth : Nat
  list : List Nat

structure State where
  h : Heap
  ts : List Thread

def Node.blank : Node := { rc := 0, deps := [], data := [], hasFree := false, gone := false }

/-- `numFilterInstances` begins with one, src/core/vscore.cpp:2017. -/
def State.init (threads : Nat) : State :=
  { h := { node := fun _ => Node.blank, next := 0, ext := fun _ => 0, inst := 1, coreFreed := false
           coreGone := false, ub := false, trace := [] }
    ts := List.replicate threads { stack := [], depth := 0, list := [] } }

def Heap.setNode (h : Heap) (c : Nat) (n : Node) : Heap := { h with node := upd h.node c n }

def Heap.emit (h : Heap) (e : Event) : Heap := { h with trace := h.trace ++ [e] }

/-- The core is used. -/
def Heap.touch (h : Heap) : Heap := if h.coreGone then { h with ub := true } else h

/-- `filterInstanceDestroyed`, src/core/vscore.cpp:1935-1940. -/
def Heap.decInst (h : Heap) : Heap :=
  if h.coreGone then { h with ub := true }
  else if h.inst - 1 = 0 then { h with inst := h.inst - 1, coreGone := true, trace := h.trace ++ [.coreDeleted] }
  else { h with inst := h.inst - 1 }

/-- The instance of a filter is gone. -/
def Heap.instGone (h : Heap) (c : Nat) : Heap :=
  (h.setNode c { h.node c with gone := true }).decInst

/-- The next step of a thread. -/
def Thread.step (h : Heap) (t : Thread) : Option (Heap × Thread) :=
  match t.stack with
  | [] => none
  -- `release`: a count of zero means that the node was deleted already
  | .rel c :: r =>
    let n := h.node c
    if n.rc = 0 then some ({ h with ub := true }, { t with stack := r })
    else if n.rc = 1 then
      -- `~VSNode` begins with `registerCache(false)`, which uses the core
      some ((h.setNode c { n with rc := 0, deps := [] }).touch, { t with stack := .dtor c n.deps :: r })
    else some (h.setNode c { n with rc := n.rc - 1 }, { t with stack := r })
  | .dtor c (d :: ds) :: r => some (h, { t with stack := .rel d :: .dtor c ds :: r })
  -- `destroyFilterInstance`
  | .dtor c [] :: r =>
    let h1 := h.touch
    let list := if (h.node c).hasFree then c :: t.list else t.list
    let h2 := if (h.node c).hasFree then h1 else h1.instGone c
    if t.depth = 0 then some (h2, { stack := .drain :: r, depth := 1, list := list })
    else some (h2, { stack := r, depth := t.depth, list := list })
  | .drain :: r =>
    match t.list with
    | [] => some (h, { t with stack := r, depth := t.depth - 1 })
    | x :: l =>
      let n := h.node x
      -- the core is passed to the free function
      some (((h.setNode x { n with data := [] }).emit (.freed x)).touch,
        { stack := .free x n.data :: .drain :: r, depth := t.depth, list := l })
  | .free c (d :: ds) :: r => some (h, { t with stack := .rel d :: .free c ds :: r })
  | .free c [] :: r => some (h.instGone c, { t with stack := r })

/-- A thread runs code that is not part of the core: no call is in progress, or a free function is. -/
def Thread.user (t : Thread) : Bool :=
  match t.stack with
  | [] => true
  | .free _ _ :: _ => true
  | _ => false

inductive Action where
  /-- `createVideoFilter` and `createAudioFilter`: the new node belongs to the caller, each dependency gets one
  more reference, the caller's references in `data` go to the filter -/
  | create (deps data : List Nat) (hasFree : Bool)
  /-- `addNodeRef`, and everything else that copies a reference -/
  | addRef (c : Nat)
  /-- thread `i` calls `freeNode` -/
  | drop (i : Nat) (c : Nat)
  /-- `freeCore` -/
  | freeCore
  /-- thread `i` goes on -/
  | run (i : Nat)

/-- `VSNode::VSNode`, src/core/vscore.cpp:770-801: the dependencies are referenced, the new node has one
reference. -/
def Heap.create (h : Heap) (deps data : List Nat) (hasFree : Bool) : Heap :=
  let c := h.next
  { h with
    node := fun n => if n = c then { rc := 1, deps := deps, data := data, hasFree := hasFree, gone := false }
      else { h.node n with rc := (h.node n).rc + deps.count n }
    next := c + 1
    ext := fun n => if n = c then 1 else h.ext n - data.count n
    inst := h.inst + 1
    trace := h.trace ++ [.created c deps data hasFree] }

/-- One step; `none` if user code breaks the rules of the interface: it may only use references it holds,
create filters only before `freeCore`, and call `freeCore` once. -/
def State.step (s : State) : Action → Option State
  | .create deps data hasFree =>
    if s.h.coreFreed = false ∧ (∀ d ∈ deps, 0 < s.h.ext d) ∧ (∀ d ∈ data, data.count d ≤ s.h.ext d) ∧
        (hasFree = false → data = []) then
      some { s with h := s.h.create deps data hasFree }
    else none
  | .addRef c =>
    if 0 < s.h.ext c then
      some { s with h := { s.h.setNode c { s.h.node c with rc := (s.h.node c).rc + 1 } with
        ext := upd s.h.ext c (s.h.ext c + 1) } }
    else none
  | .drop i c =>
    match s.ts[i]? with
    | some t =>
      if t.user = true ∧ 0 < s.h.ext c then
        some { h := { s.h with ext := upd s.h.ext c (s.h.ext c - 1) }
               ts := s.ts.set i { t with stack := .rel c :: t.stack } }
      else none
    | none => none
  | .freeCore =>
    if s.h.coreFreed = false then
      some { s with h := ({ s.h with coreFreed := true, trace := s.h.trace ++ [Event.coreReleased] }).decInst }
    else none
  | .run i =>
    match s.ts[i]? with
    | some t =>
      match t.step s.h with
      | some (h, t') => some { h := h, ts := s.ts.set i t' }
      | none => none
    | none => none

/-- The states a history leads to. -/
inductive Run (threads : Nat) : List Action → State → Prop where
  | nil : Run threads [] (State.init threads)
  | snoc {as : List Action} {s s' : State} {a : Action} : Run threads as s → s.step a = some s' →
      Run threads (as ++ [a]) s'

end VS.Life
