import Verif.Pixel.Model
import Verif.Map.Model

/-!
# PlaneStats

Model of PlaneStats in src/core/simplefilters.cpp:1890-2045 and of src/core/kernel/planestats.cpp.

Simplifications: the statistics of float samples are arbitrary functions of the samples (`SFloats`); the vectorized kernels are not modelled;
error messages do not name the formats.
-/

namespace VS.Stats
open VS VS.Format VS.Map VS.Map.Spec VS.Pix VS.Point VS.Pixel

/-- Double precision arithmetic: rounding, and the bits of a number. Statistics of float samples: minimum, maximum, average and
difference, as bits of doubles. -/
structure SFloats where
  rnd : Rat → Rat
  rnd_close : ∀ q, rabs (rnd q - q) ≤ rabs q / 2 ^ 53 + 1 / 2 ^ 1075
  rnd_mono : ∀ q r, q ≤ r → rnd q ≤ rnd r
  rnd_int : ∀ z : Int, z.natAbs ≤ 2 ^ 53 → rnd z = z
  bits : Rat → Nat
  fmin : Kind → List Nat → Nat
  fmax : Kind → List Nat → Nat
  favg : Kind → List Nat → Nat → Nat
  fdiff : Kind → List (Nat × Nat) → Nat → Nat

variable (F : SFloats)

/-! ## Kernels -/

/-- The integer part of `union vs_plane_stats`. -/
structure Ints where
  min : Nat
  max : Nat
  acc : Nat
  diff : Nat

/-- One sample, kernel/planestats.cpp:34-37, 57-60, 133-138 and 167-171. The sums are of type `uint64_t`. -/
def Ints.add (s : Ints) (v t : Nat) : Ints :=
  ⟨if s.min < v then s.min else v, if s.max > v then s.max else v, (s.acc + v) % 2 ^ 64,
    (s.diff + (if v > t then v - t else t - v)) % 2 ^ 64⟩

/-- The loops over a plane, kernel/planestats.cpp:32-40. -/
def scan {σ : Type} (cell : Nat → Nat → Res (Nat × Nat)) (add : σ → Nat → Nat → σ) (w h : Nat) (s : σ) : Res σ :=
  forN (fun y s => forN (fun x s => do
    let c ← cell x y
    .ok (add s c.1 c.2)) w s) h s

/-- The samples of one or two planes; for one plane the second sample isn't used. -/
def cells (n stride stride2 : Nat) (b : Buf) (b2 : Option Buf) (x y : Nat) : Res (Nat × Nat) := do
  let v ← rd b n (y * stride + x * n : Nat)
  match b2 with
  | none => .ok (v, v)
  | some b2 => do
    let t ← rd b2 n (y * stride2 + x * n : Nat)
    .ok (v, t)

/-- The first values, kernel/planestats.cpp:29-31 and 52-54. -/
def first (k : Kind) : Ints := ⟨if k = .byte then 255 else 2 ^ 32 - 1, 0, 0, 0⟩

/-! ## Properties -/

/-- `mapSetInt` and `mapSetFloat` with `maReplace`, src/core/vsapi.cpp:570-582: nothing happens for wrong names. -/
def set (d : Dict) (k : Key) (e : Entry) : Dict := if isValidVSMapKey k then d.put k (some e) else d

/-- A product of type `int64_t`. -/
def mul64 (a b : Nat) : Res Nat := if a * b < 2 ^ 63 then .ok (a * b) else .ub

/-- The quotient of doubles, simplefilters.cpp:2001-2003. -/
def quotient (a n : Nat) : Rat := F.rnd (F.rnd (a : Int) / F.rnd (n : Int))

/-- The names. -/
structure Names where
  average : Key
  min : Key
  max : Key
  diff : Key

/-- The properties for integer clips, simplefilters.cpp:1989-2012. -/
def intProps (nm : Names) (bits w h : Nat) (two : Bool) (s : Ints) (d : Dict) : Res Dict := do
  let a ← mul64 w h
  let n ← mul64 a (2 ^ bits - 1)
  let d := set d nm.min (.int, [.int s.min])
  let d := set d nm.max (.int, [.int s.max])
  let d := set d nm.average (.float, [.float (F.bits (quotient F s.acc n))])
  .ok (if two then set d nm.diff (.float, [.float (F.bits (quotient F s.diff n))]) else d)

/-- The properties for float clips. -/
def floatProps (nm : Names) (k : Kind) (w h : Nat) (two : Bool) (l : List (Nat × Nat)) (d : Dict) : Res Dict := do
  let a ← mul64 w h
  let d := set d nm.min (.float, [.float (F.fmin k (l.map (·.1)))])
  let d := set d nm.max (.float, [.float (F.fmax k (l.map (·.1)))])
  let d := set d nm.average (.float, [.float (F.favg k (l.map (·.1)) a)])
  .ok (if two then set d nm.diff (.float, [.float (F.fdiff k l a)]) else d)

/-! ## Filter -/

/-- The plane of the second frame. -/
def plane? (f : Option Frm) (p : Nat) : Res (Option Buf) :=
  match f with
  | none => .ok none
  | some f => do
    let b ← f.plane p
    .ok (some b)

/-- The stride of the second frame. -/
def stride? (al : Nat) (f : Option Frm) (p : Nat) : Nat :=
  match f with
  | none => 0
  | some f => f.stride al p

/-- The statistics as properties, for each kind of samples. -/
def props (al : Nat) (nm : Names) (p : Nat) (s1 : Frm) (s2 : Option Frm) (k : Kind) (b : Buf) (b2 : Option Buf) : Res Dict :=
  match k with
  | .byte | .word => do
    let s ← scan (cells k.bytes (s1.stride al p) (stride? al s2 p) b b2) Ints.add (s1.w p) (s1.h p) (first k)
    intProps F nm s1.fmt.bitsPerSample.toNat (s1.w p) (s1.h p) s2.isSome s s1.props
  | k => do
    let l ← scan (cells k.bytes (s1.stride al p) (stride? al s2 p) b b2) (fun l v t => l ++ [(v, t)]) (s1.w p) (s1.h p) []
    floatProps F nm k (s1.w p) (s1.h p) s2.isSome l s1.props

/-- The second frame, simplefilters.cpp:1912. -/
def second (get : Nat → Nat → Res Frm) (two : Bool) (n : Nat) : Res (Option Frm) :=
  if two then do
    let f ← get 1 n
    .ok (some f)
  else .ok none

/-- `planeStatsGetFrame`, simplefilters.cpp:1902-2020. -/
def statsFilter (al : Nat) (vi : VInfo) (two : Bool) (p : Nat) (nm : Names) : PFilter :=
  ⟨vi, fun n => if two then [(0, n), (1, n)] else [(0, n)], fun n get _ => do
    let s1 ← get 0 n
    let s2 ← second get two n
    let b ← s1.plane p
    let b2 ← plane? s2 p
    match pixKind s1.fmt with
    | none => .ub
    | some k => do
      let d ← props F al nm p s1 s2 k b b2
      .ok { s1 with props := d }⟩

/-- The names of the properties, simplefilters.cpp:2039-2044. -/
def names (prop : Option String) : Names :=
  let s := prop.getD "PlaneStats"
  ⟨s ++ "Average", s ++ "Min", s ++ "Max", s ++ "Diff"⟩

/-- `planeStatsCreate`, simplefilters.cpp:2022-2050. `plane` is the argument after `mapGetIntSaturated`, 0 if not given. -/
def statsCreate (al : Nat) (vi : VInfo) (vi2 : Option VInfo) (plane : Int) (prop : Option String) : Res Created :=
  if !is8to16orFloat vi.format then .err (badFormat "PlaneStats")
  else if plane < 0 ∨ plane ≥ vi.format.numPlanes then .err "PlaneStats: invalid plane specified"
  else
    match vi2 with
    | none => create (statsFilter F al vi false plane.toNat (names prop))
    | some vi2 =>
      if !isSameVideoInfo vi vi2 || !isConstantVideoFormat vi2 then
        .err "PlaneStats: both input clips must have the same format when second clip is used"
      else create (statsFilter F al vi true plane.toNat (names prop))

end VS.Stats
