import Verif.Pixel.Model

/-!
# BoxBlur

Model of src/core/boxblurfilter.cpp. The arithmetic of the sums is a parameter of the kernels: `unsigned` with magic division for
integers, `float` for float samples.
-/

namespace VS.Blur
open VS VS.Format VS.Map VS.Map.Spec VS.Pix VS.Point VS.Pixel

/-! ## Division by a constant -/

/-- `FastDivU32`, boxblurfilter.cpp:50-54. -/
structure FastDiv where
  magic : Nat
  shift : Nat
  add : Bool

/-- `while ((d >> l) > 1) ++l`, boxblurfilter.cpp:58-60: at most 32 turns for an `uint32_t`. -/
def floorLog (d : Nat) : Nat → Nat → Nat
  | 0, l => l
  | n + 1, l => if d / 2 ^ l > 1 then floorLog d n (l + 1) else l

/-- `makeFastDivU32`, boxblurfilter.cpp:56-86, for `d > 0`. All numbers are `uint32_t` but for `two_l`. -/
def makeFastDiv (d : Nat) : FastDiv :=
  let l := floorLog d 32 0
  if d &&& (d - 1) = 0 then ⟨0, l, false⟩
  else
    let two := 2 ^ (32 + l) % 2 ^ 64
    let m := two / d % 2 ^ 32
    let rem := (two - m * d) % 2 ^ 32
    if (d - rem) % 2 ^ 32 < 2 ^ l then ⟨(m + 1) % 2 ^ 32, l, false⟩
    else
      let twice := (rem + rem) % 2 ^ 32
      let m := (m + m) % 2 ^ 32
      let m := if twice ≥ d ∨ twice < rem then (m + 1) % 2 ^ 32 else m
      ⟨(m + 1) % 2 ^ 32, l, true⟩

/-- `fastDivU32`, boxblurfilter.cpp:88-97. -/
def fastDiv (n : Nat) (fd : FastDiv) : Nat :=
  if fd.magic = 0 then n / 2 ^ fd.shift
  else
    let q := fd.magic * n % 2 ^ 64 / 2 ^ 32 % 2 ^ 32
    if fd.add then ((n + 2 ^ 32 - q) % 2 ^ 32 / 2 + q) % 2 ^ 32 / 2 ^ fd.shift
    else q / 2 ^ fd.shift

/-! ## Accumulators -/

/-- The arithmetic of a kernel. -/
structure Acc where
  /-- the type of the sum -/
  A : Type
  /-- a sample as a number of this type -/
  load : Nat → A
  /-- `radius * src[0]` -/
  scale : Nat → Nat → Res A
  /-- `acc += ...` -/
  add : A → A → A
  /-- `acc -= ...` -/
  sub : A → A → A
  /-- what is stored: the number that is added for rounding, and the sum -/
  out : Nat → A → Nat

/-- Addition of `unsigned`. -/
def add32 (a b : Nat) : Nat := (a + b) % 2 ^ 32

/-- Subtraction of `unsigned`. -/
def sub32 (a b : Nat) : Nat := (a + 2 ^ 32 - b) % 2 ^ 32

/-- `unsigned` with magic division, boxblurfilter.cpp:100-124, 167-170: the product is of type `int`. -/
def intAcc (radius : Nat) : Acc where
  A := Nat
  load v := v
  scale r v := do
    let p ← i32 (r * v : Nat)
    .ok (p.toNat % 2 ^ 32)
  add := add32
  sub := sub32
  out round a := fastDiv (add32 a round) (makeFastDiv (radius * 2 + 1))

/-- `unsigned` with the usual division, boxblurfilter.cpp:337-375. -/
def intAcc1 : Acc where
  A := Nat
  load v := v
  scale r v := .ok (r * v % 2 ^ 32)
  add := add32
  sub := sub32
  out round a := add32 a round / 3

/-- Arithmetic on float samples, boxblurfilter.cpp:180-334, 388-494: `div` is `1 / (radius * 2 + 1)`. It is rounded after each
operation, a compiler that fuses operations is left out. -/
structure Floats where
  /-- single precision numbers -/
  A : Type
  /-- a sample of 16 or 32 bits -/
  load : Kind → Nat → A
  /-- an `int` times a number -/
  scale : Nat → A → A
  add : A → A → A
  sub : A → A → A
  /-- `acc * div` for the given radius, as a sample -/
  out : Kind → Nat → A → Nat

/-- The arithmetic of the float kernels. -/
def floatAcc (F : Floats) (k : Kind) (radius : Nat) : Acc where
  A := F.A
  load := F.load k
  scale r v := .ok (F.scale r (F.load k v))
  add := F.add
  sub := F.sub
  out _ := F.out k radius

/-! ## Kernels -/

/-- Sample `x` of a row of `n` byte samples that begins at `off`. -/
def rowRd (n off : Nat) (b : Buf) (x : Nat) : Res Nat := rd b n (off + x * n : Nat)

/-- Set sample `x` of a row. -/
def rowWr (n off : Nat) (b : Buf) (x v : Nat) : Res Buf := wr b n (off + x * n : Nat) v

/-- The sum before the first sample, boxblurfilter.cpp:101-103: `R` reads a sample of the row. -/
def startSum (Q : Acc) (R : Nat → Res Nat) (width radius : Nat) : Res Q.A := do
  let s0 ← R 0
  let a ← Q.scale radius s0
  forN (fun x a => do
    let v ← R (min x (width - 1))
    .ok (Q.add a (Q.load v))) radius a

/-- One turn of a loop in `blurH`, boxblurfilter.cpp:105-122: `hi` and `lo` are the samples added and subtracted. -/
def turn (Q : Acc) (R : Nat → Res Nat) (n off round : Nat) (x hi lo : Nat) (s : Q.A × Buf) : Res (Q.A × Buf) := do
  let v ← R hi
  let a := Q.add s.1 (Q.load v)
  let b ← rowWr n off s.2 x (Q.out round a)
  let u ← R lo
  .ok (Q.sub a (Q.load u), b)

/-- `blurH`, `blurHF` and `blurHF_half`, boxblurfilter.cpp:100-124, 181-205, 260-284: `R` reads the source row. -/
def blurH (Q : Acc) (R : Nat → Res Nat) (n off width radius round : Nat) (dst : Buf) : Res Buf := do
  let a ← startSum Q R width radius
  let s ← forN (fun x => turn Q R n off round x (min (x + radius) (width - 1)) (x - radius)) (min radius width) (a, dst)
  if width > radius then do
    let s ← forFrom (fun x => turn Q R n off round x (x + radius) (x - radius)) 1 radius (width - radius - radius) s
    let s ← forFrom (fun x s => do
      let hi ← i32 (x + radius : Nat)
      turn Q R n off round x (min hi.toNat (width - 1)) (x - radius) s) 1 (max (width - radius) radius)
        (width - max (width - radius) radius) s
    .ok s.2
  else .ok s.2

/-- What `blurH_inplace` changes: the sum, the row, the ring and the place in the ring. -/
structure Ring (Q : Acc) where
  acc : Q.A
  row : Buf
  ring : List (Option Nat)
  wr : Nat

/-- `ring[wr] = v; if (++wr == R) wr = 0;` -/
def Ring.push {Q : Acc} (s : Ring Q) (size v : Nat) : Res (Ring Q) :=
  if s.wr < s.ring.length then
    .ok { s with ring := s.ring.set s.wr (some v), wr := if s.wr + 1 = size then 0 else s.wr + 1 }
  else .ub

/-- `ring[wr]`; reading memory that was never written is undefined behaviour. -/
def Ring.oldest {Q : Acc} (s : Ring Q) : Res Nat :=
  match s.ring[s.wr]? with
  | some (some v) => .ok v
  | _ => .ub

/-- One turn of a loop in `blurH_inplace`, boxblurfilter.cpp:136-162: `hi` is the sample added, `first` the one subtracted, if it is not
in the ring. -/
def turnIn (Q : Acc) (n off round size : Nat) (first : Option Nat) (x hi : Nat) (s : Ring Q) : Res (Ring Q) := do
  let c ← rowRd n off s.row x
  let s ← s.push size c
  let v ← rowRd n off s.row hi
  let a := Q.add s.acc (Q.load v)
  let b ← rowWr n off s.row x (Q.out round a)
  let u ← match first with
    | some u => .ok u
    | none => s.oldest
  .ok { s with acc := Q.sub a (Q.load u), row := b }

/-- `blurH_inplace`, `blurHF_inplace` and `blurHF_inplace_half`, boxblurfilter.cpp:127-164, 209-246, 286-323: source and destination
are the same row. The ring has room for `ring` samples. -/
def blurInplace (Q : Acc) (n off width radius round ring : Nat) (dst : Buf) : Res Buf := do
  let size := min (radius + 1) width
  let first ← rowRd n off dst 0
  let a ← startSum Q (rowRd n off dst) width radius
  let s ← forN (fun x => turnIn Q n off round size (some first) x (min (x + radius) (width - 1))) (min radius width)
    ⟨a, dst, List.replicate ring none, 0⟩
  if width > radius then do
    let s ← forFrom (fun x => turnIn Q n off round size none x (x + radius)) 1 radius (width - radius - radius) s
    let s ← forFrom (fun x s => do
      let hi ← i32 (x + radius : Nat)
      turnIn Q n off round size none x (min hi.toNat (width - 1)) s) 1 (max (width - radius) radius)
        (width - max (width - radius) radius) s
    .ok s.row
  else .ok s.row

/-- The variables of `blurHR1`. -/
structure R1 (Q : Acc) where
  acc : Q.A
  row : Buf
  tmp0 : Nat
  tmp1 : Nat

/-- One turn of the loop of `blurHR1`, boxblurfilter.cpp:349-361. `R` reads the source, which may be the row that is written. -/
def turnR1 (Q : Acc) (R : Buf → Nat → Res Nat) (n off round x : Nat) (s : R1 Q) : Res (R1 Q) := do
  let v ← R s.row (x + 1)
  let a := Q.add s.acc (Q.load v)
  let b ← rowWr n off s.row x (Q.out round a)
  let a := Q.sub a (Q.load s.tmp1)
  let w ← R b (x + 2)
  let a := Q.add a (Q.load w)
  let b ← rowWr n off b (x + 1) (Q.out round a)
  .ok ⟨Q.sub a (Q.load s.tmp0), b, w, v⟩

/-- `blurHR1`, `blurHR1F` and `blurHR1F_half`, boxblurfilter.cpp:337-375, 389-429, 444-484. `tmp` and `v` hold samples here,
which are converted when they are used instead of when they are read. -/
def blurR1 (Q : Acc) (R : Buf → Nat → Res Nat) (n off width round : Nat) (dst : Buf) : Res Buf := do
  let t0 ← R dst 0
  let t1 ← R dst 1
  let a ← Q.scale 2 t0
  let a := Q.add a (Q.load t1)
  let b ← rowWr n off dst 0 (Q.out round a)
  let a := Q.sub a (Q.load t0)
  let v ← R b 2
  let a := Q.add a (Q.load v)
  let b ← rowWr n off b 1 (Q.out round a)
  let a := Q.sub a (Q.load t0)
  let s ← forFrom (turnR1 Q R n off round) 2 2 ((width - 3) / 2) ⟨a, b, v, t1⟩
  if width % 2 = 1 then do
    let a := Q.add s.acc (Q.load s.tmp0)
    rowWr n off s.row (width - 1) (Q.out round a)
  else do
    let v ← R s.row (width - 1)
    let a := Q.add s.acc (Q.load v)
    let b ← rowWr n off s.row (width - 2) (Q.out round a)
    let a := Q.sub a (Q.load s.tmp1)
    let a := Q.add a (Q.load v)
    rowWr n off b (width - 1) (Q.out round a)

/-! ## Planes -/

/-- `(p & 1) ? 0 : round`. -/
def roundOf (p round : Nat) : Nat := if p % 2 = 1 then 0 else round

/-- `processPlane`, `processPlaneF` and `processPlaneF_half`, boxblurfilter.cpp:167-178, 249-258, 325-334, and the allocation of the
ring, 517. The pointers of row `h` are given by their distance instead of being moved along. -/
def processPlane (Q : Acc) (n stride width height passes radius : Nat) (src : Buf) (dst : Buf) : Res Buf :=
  forN (fun h b => do
    let b ← blurH Q (rowRd n (h * stride) src) n (h * stride) width radius (radius * 2) b
    forFrom (fun p b => blurInplace Q n (h * stride) width radius (roundOf p (radius * 2)) (min (radius + 1) width) b) 1 1 (passes - 1) b)
    height dst

/-- `processPlaneR1`, `processPlaneR1F` and `processPlaneR1F_half`, boxblurfilter.cpp:378-386, 432-440, 486-494. -/
def processPlaneR1 (Q : Acc) (n stride width height passes : Nat) (src : Buf) (dst : Buf) : Res Buf :=
  forN (fun h b => do
    let b ← blurR1 Q (fun _ => rowRd n (h * stride) src) n (h * stride) width 2 b
    forFrom (fun p b => blurR1 Q (rowRd n (h * stride)) n (h * stride) width (roundOf p 2) b) 1 1 (passes - 1) b)
    height dst

/-- The kernel for a frame, boxblurfilter.cpp:519-537. -/
def blurKind (f : VFmt) : Kind :=
  if f.bytesPerSample = 1 then .byte
  else if f.sampleType = stInteger ∧ f.bytesPerSample = 2 then .word
  else if f.bytesPerSample = 2 then .half
  else .single

/-- The plane, boxblurfilter.cpp:508-537. -/
def blurPlane (F : Floats) (al radius passes : Nat) (src : Frm) (b : Buf) : Res Buf := do
  let s ← src.plane 0
  let k := blurKind src.fmt
  let isFloat := k = .half ∨ k = .single
  if radius = 1 ∧ src.w 0 ≥ 3 then
    processPlaneR1 (if isFloat then floatAcc F k 1 else intAcc1) k.bytes (src.stride al 0) (src.w 0) (src.h 0) passes s b
  else
    processPlane (if isFloat then floatAcc F k radius else intAcc radius) k.bytes (src.stride al 0) (src.w 0) (src.h 0) passes radius s b

/-- `boxBlurGetframe`, boxblurfilter.cpp:496-546. Only the first plane is written. -/
def blurFrame (F : Floats) (al radius passes : Nat) (src : Frm) (junk : Junk) : Res Frm := do
  let dst ← newVideoFrame al src.fmt (src.w 0) (src.h 0) src.props junk
  dst.build fun p b => if p = 0 then blurPlane F al radius passes src b else .ok b

/-! ## Filters made of filters -/

/-- Nodes: the clip that is given, filters with one input and filters with three inputs. -/
inductive Graph where
  | input
  | one (C : Created) (g : Graph)
  | three (C : Created) (g0 g1 g2 : Graph)

/-- `getVideoInfo`; `vi` is that of the clip that is given. -/
def Graph.info (vi : VInfo) : Graph → Option VInfo
  | .input => some vi
  | .one (.filter f) _ => some f.vi
  | .one (.pass _) g => g.info vi
  | .three (.filter f) _ _ _ => some f.vi
  | .three (.pass i) g0 g1 g2 => ([g0.info vi, g1.info vi, g2.info vi][i]?).join

/-- The results of `f` for 0, 1, …, in order. -/
def collect {α : Type} (f : Nat → Res α) : Nat → Nat → Res (List α)
  | _, 0 => .ok []
  | i, n + 1 => do
    let a ← f i
    let l ← collect f (i + 1) n
    .ok (a :: l)

/-- All frames of a filter. -/
def evalOne (C : Created) (vi : VInfo) (clips : List PClip) (junk : Nat → Junk) : Res PClip := do
  let l ← collect (fun n => C.frame clips n (junk n)) 0 vi.numFrames.toNat
  .ok ⟨vi, l⟩

/-- What new memory contains, for each node and each frame. -/
abbrev Junks := List Nat → Nat → Junk

/-- All frames of a node. A node without info is a null pointer. Frames are computed when they are requested, this is left out here. -/
def Graph.eval (c : PClip) : Graph → Junks → Res PClip
  | .input, _ => .ok c
  | .one C g, j => do
    let d ← g.eval c (fun l => j (0 :: l))
    match outInfo' C [d.vi] with
    | some vi => evalOne C vi [d] (j [])
    | none => .ub
  | .three C g0 g1 g2, j => do
    let d0 ← g0.eval c (fun l => j (0 :: l))
    let d1 ← g1.eval c (fun l => j (1 :: l))
    let d2 ← g2.eval c (fun l => j (2 :: l))
    match outInfo' C [d0.vi, d1.vi, d2.vi] with
    | some vi => evalOne C vi [d0, d1, d2] (j [])
    | none => .ub
where
  /-- the info of a node -/
  outInfo' (C : Created) (vis : List VInfo) : Option VInfo :=
    match C with
    | .pass i => vis[i]?
    | .filter f => some f.vi

/-- The node in the result of `invoke`: an error is not looked at, reading the node from the map then ends the process,
src/core/vsapi.cpp:360-366. -/
def nodeOf {α : Type} : Res α → Res α
  | .err _ => .fatal "Property read unsuccessful on map with error set but no error output"
  | r => r

/-- `getVideoInfo` of a node, a null pointer otherwise. -/
def infoOf (vi : VInfo) (g : Graph) : Res VInfo :=
  match g.info vi with
  | some v => .ok v
  | none => .ub

/-- The filter of `applyBoxBlurPlaneFiltering`. -/
def boxFilter (F : Floats) (al : Nat) (vi : VInfo) (radius passes : Nat) : PFilter :=
  ⟨vi, fun n => [(0, n)], fun n get junk => do
    let src ← get 0 n
    blurFrame F al radius passes src junk⟩

/-- The horizontal part, boxblurfilter.cpp:558-561. A filter that cannot be made is a null pointer, which is used below. -/
def applyH (F : Floats) (al : Nat) (vi : VInfo) (g : Graph) (radius passes : Nat) : Res Graph :=
  if 0 < radius ∧ 0 < passes then do
    let v ← infoOf vi g
    match create (boxFilter F al v radius passes) with
    | .ok C => .ok (.one C g)
    | .err _ => .ub
    | .fatal m => .fatal m
    | .ub => .ub
  else .ok g

/-- The vertical part, boxblurfilter.cpp:563-577. -/
def applyV (F : Floats) (al : Nat) (blk : Nat → Nat × Nat) (vi : VInfo) (g : Graph) (radius passes : Nat) : Res Graph :=
  if 0 < radius ∧ 0 < passes then do
    let v ← infoOf vi g
    let T ← nodeOf (transposeCreate al blk .transpose v)
    let g := Graph.one T g
    let v ← infoOf vi g
    let B ← nodeOf (create (boxFilter F al v radius passes))
    let g := Graph.one B g
    let v ← infoOf vi g
    let T ← nodeOf (transposeCreate al blk .transpose v)
    .ok (.one T g)
  else .ok g

/-- `applyBoxBlurPlaneFiltering`, boxblurfilter.cpp:554-580. -/
def applyPlane (F : Floats) (al : Nat) (blk : Nat → Nat × Nat) (vi : VInfo) (g : Graph) (hr hp vr vp : Nat) : Res Graph := do
  let g ← applyH F al vi g hr hp
  applyV F al blk vi g vr vp

/-- A clip for the planes that are put together, boxblurfilter.cpp:639-654. -/
def planeClip (F : Floats) (al : Nat) (blk : Nat → Nat × Nat) (vi : VInfo) (process : List Bool) (hr hp vr vp p : Nat) : Res Graph :=
  if process.getD p false then do
    let C ← nodeOf (shufflePlanesCreate [vi] [(p : Int)] cfGray false)
    applyPlane F al blk vi (.one C .input) hr hp vr vp
  else .ok .input

/-- An optional argument, boxblurfilter.cpp:595-608: `mapGetIntSaturated`, 1 if it is not given. -/
def argOr1 (a : Option Int) : Int := int64ToIntS (a.getD 1)

/-- `boxBlurCreate`, boxblurfilter.cpp:582-669. -/
def boxBlurCreate (F : Floats) (al : Nat) (blk : Nat → Nat × Nat) (vi : VInfo) (planes : List Int) (hradius hpasses vradius vpasses : Option Int) :
    Res Graph :=
  if !is8to16orFloat vi.format then .err (badFormat "BoxBlur")
  else do
    let process ← getPlanesArg "BoxBlur" planes
    let hr := argOr1 hradius
    let hp := argOr1 hpasses
    let vr := argOr1 vradius
    let vp := argOr1 vpasses
    if hp < 0 ∨ vp < 0 then .err "BoxBlur: number of passes can't be negative"
    else if hr < 0 ∨ vr < 0 then .err "BoxBlur: radius can't be negative"
    else if hr > 30000 ∨ vr > 30000 then .err "BoxBlur: radius must be less than 30000"
    else if ¬ (hr > 0 ∧ hp > 0) ∧ ¬ (vr > 0 ∧ vp > 0) then .err "BoxBlur: nothing to be performed"
    else if vi.width < 4 ∨ vi.height < 4 then .err "BoxBlur: dimensions must be at least 4x4"
    else if vi.format.numPlanes = 1 then
      applyPlane F al blk vi .input hr.toNat hp.toNat vr.toNat vp.toNat
    else do
      let g0 ← planeClip F al blk vi process hr.toNat hp.toNat vr.toNat vp.toNat 0
      let g1 ← planeClip F al blk vi process hr.toNat hp.toNat vr.toNat vp.toNat 1
      let g2 ← planeClip F al blk vi process hr.toNat hp.toNat vr.toNat vp.toNat 2
      let v0 ← infoOf vi g0
      let v1 ← infoOf vi g1
      let v2 ← infoOf vi g2
      let C ← nodeOf (shufflePlanesCreate [v0, v1, v2] [0, if process.getD 1 false then 0 else 1, if process.getD 2 false then 0 else 2]
        vi.format.colorFamily false)
      .ok (.three C g0 g1 g2)

end VS.Blur
