import Verif.Cache.Model

/-!
# The cache switches of a node

Model of the parts of `VSNode` (src/core/vscore.h:879-930, src/core/vscore.cpp:849-891, 990-1054,
1107-1114, 1152-1180) that decide whether its cache is used.

Simplifications: every call is atomic; the flag and the registration with the core
(`registerCache`, outside `cacheMutex`) change together.
-/

namespace VS.Cache
open VS

/-- A consumer of the node with its request pattern, `VSFilterDependency`, include/VapourSynth4.h. -/
structure Consumer where
  node : Nat
  pattern : Int
  deriving DecidableEq, Repr

/-- `VSRequestPattern`, include/VapourSynth4.h: `rpGeneral`, `rpNoFrameReuse`,
`rpStrictSpatial`, `rpFrameReuseLastOnly`. -/
def rpGeneral : Int := 0
def rpNoFrameReuse : Int := 1
def rpStrictSpatial : Int := 2
def rpFrameReuseLastOnly : Int := 3

/-- The node state that concerns caching; `numFrames` is the length of the clip. -/
structure CNode where
  cache : Cache
  linear : Bool
  override : Bool
  enabled : Bool
  lastOnly : Bool
  consumers : List Consumer
  registered : Bool
  numFrames : Int

/-- The two flags of `updateCacheState`, src/core/vscore.cpp:859-861. -/
def autoEnabled (cs : List Consumer) : Bool :=
  (cs.length != 1) || (cs.length == 1 &&
    (match cs with
     | c :: _ => c.pattern != rpStrictSpatial && c.pattern != rpNoFrameReuse
     | [] => false))

def autoLastOnly (cs : List Consumer) : Bool :=
  (cs.length == 1) &&
    (match cs with
     | c :: _ => c.pattern == rpFrameReuseLastOnly
     | [] => false)

/-- `updateCacheState`, src/core/vscore.cpp:858-866. -/
def updateCacheState (n : CNode) : CNode :=
  if n.override = true then n
  else
    let e := autoEnabled n.consumers
    { n with enabled := e, lastOnly := autoLastOnly n.consumers,
             cache := if e = true then n.cache else clear n.cache }

/-- `registerCache(cacheEnabled)`, src/core/vscore.cpp:849-856. -/
def registerCache (n : CNode) : CNode := { n with registered := n.enabled }

/-- The end of the constructors, src/core/vscore.cpp:770-772, 797-799, 827-829. -/
def CNode.new (numFrames : Int) : CNode :=
  registerCache (updateCacheState ⟨Cache.new, false, false, false, false, [], false, numFrames⟩)

/-- `consumers.erase` of the first match, src/core/vscore.cpp:881-886. -/
def eraseFirst (c : Consumer) : List Consumer → List Consumer
  | [] => []
  | d :: t => if d.node = c.node ∧ d.pattern = c.pattern then t else d :: eraseFirst c t

/-- Calls made on a node. -/
inductive NOp where
  | addConsumer (c : Consumer)
  | removeConsumer (c : Consumer)
  | setLinear (threads : Nat)
  | setCacheMode (mode : Int)
  | setCacheOptions (fixedSize maxSize maxHistory : Int)
  | getCached (n : Int)
  | store (n : Int) (f : Frame)
  | cacheFrame (n : Int) (f : Frame)
  | clearCache (resetSize : Bool)
  | notifyCache (comfortable : Bool) (ext : Nat)
  | evictBytes (maxBytes : Nat)
  deriving DecidableEq, Repr

/-- A sequence of cache calls made by a node. -/
def cacheCalls (n : CNode) (ops : List Op) : Res (CNode × List (Option Frame)) := do
  let p ← run n.cache ops
  .ok ({ n with cache := p.1 }, p.2)

/-- The flags set by `setCacheMode`, src/core/vscore.cpp:1014-1026. -/
def modeFlags (n : CNode) (mode : Int) : CNode :=
  if mode = -1 then updateCacheState { n with override := false }
  else if mode = 0 then { n with override := true, enabled := false, lastOnly := false }
  else { n with override := true, enabled := true, lastOnly := false }

/-- The cache calls of `setCacheOptions`, src/core/vscore.cpp:1038-1046. -/
def optionCalls (fixedSize maxSize maxHistory : Int) : List Op :=
  (if fixedSize ≥ 0 then [Op.setFixedSize (fixedSize != 0)] else []) ++
  (if maxSize ≥ 0 then [Op.setUserMaxFrames maxSize.toNat] else []) ++
  (if maxHistory ≥ 0 then [Op.setMaxHistory maxHistory.toNat] else [])

/-- The first frame of a list of answers. -/
def answer (l : List (Option Frame)) : Option Frame := l.head?.join

/-- One call on a node; the answer is the frame found by `getCached`. -/
def nstep (n : CNode) : NOp → Res (CNode × Option Frame)
  -- src/core/vscore.cpp:868-876
  | .addConsumer c =>
    .ok (registerCache (updateCacheState { n with consumers := n.consumers ++ [c] }), none)
  -- src/core/vscore.cpp:878-891
  | .removeConsumer c =>
    .ok (registerCache (updateCacheState { n with consumers := eraseFirst c n.consumers }), none)
  -- src/core/vscore.cpp:990-1003
  | .setLinear threads => do
    let p ← cacheCalls { n with linear := true, override := true, enabled := true, lastOnly := false }
      [.setFixedSize true, .setMaxFrames (threads * 2 + 20)]
    .ok (registerCache p.1, none)
  -- src/core/vscore.cpp:1005-1036
  | .setCacheMode mode =>
    if n.linear = true ∨ mode < -1 ∨ mode > 1 then .ok (n, none)
    else do
      let m := modeFlags n mode
      let p ← cacheCalls m ([.setFixedSize false, .resetSizeTuning, .setMaxFrames 20,
        .setMaxHistory 20] ++ (if m.enabled = true then [] else [.clear]))
      .ok (registerCache p.1, none)
  -- src/core/vscore.cpp:1038-1046
  | .setCacheOptions f m h => do
    let p ← cacheCalls n (optionCalls f m h)
    .ok (p.1, none)
  -- src/core/vscore.cpp:1048-1054
  | .getCached k =>
    if n.enabled = true then do
      let p ← cacheCalls n [.lookup k]
      .ok (p.1, answer p.2)
    else .ok (n, none)
  -- src/core/vscore.cpp:1107-1112
  | .store k f =>
    if n.enabled = true ∧ (n.lastOnly = false ∨ k = n.numFrames - 1) then do
      let p ← cacheCalls n [.insert k f]
      .ok (p.1, none)
    else .ok (n, none)
  -- src/core/vscore.cpp:1152-1156; calling it on a node that is not linear violates the assertion
  | .cacheFrame k f =>
    if n.linear = true then do
      let p ← cacheCalls n [.insert k f]
      .ok (p.1, none)
    else .ub
  -- src/core/vscore.cpp:1158-1163
  | .clearCache reset => do
    let p ← cacheCalls n (.clear ::
      (if reset = true ∧ n.linear = false ∧ n.cache.fixedSize = false then
        [.setMaxFrames (reSeedSize n.cache).toNat] else []))
    .ok (p.1, none)
  -- src/core/vscore.cpp:1165-1168
  | .notifyCache b e => do
    let p ← cacheCalls n [.adjustSize b e]
    .ok (p.1, none)
  -- src/core/vscore.cpp:1175-1178
  | .evictBytes m => do
    let p ← cacheCalls n [.dropLRUFrames m]
    .ok (p.1, none)

/-- A history of calls on a node, with the answers. -/
def nrun (n : CNode) : List NOp → Res (CNode × List (Option Frame))
  | [] => .ok (n, [])
  | op :: t => do
    let p ← nstep n op
    let q ← nrun p.1 t
    .ok (q.1, p.2 :: q.2)

end VS.Cache
