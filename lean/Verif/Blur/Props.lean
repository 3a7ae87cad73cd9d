import Verif.Blur.LemmasThree
import Verif.Point.Example

/-! # C83: BoxBlur -/

namespace VS.Blur
open VS VS.Format VS.Map VS.Map.Spec VS.Pix VS.Pix.Spec VS.Point VS.Point.Spec VS.Pixel VS.Blur.Spec

/-! ## Division without a division -/

/-- C83. The division with a multiplication and a shift gives the exact quotient, for all numbers of 32 bits. -/
theorem C83_division {n d : Nat} (hd : 0 < d) (hd' : d < 2 ^ 32) (hn : n < 2 ^ 32) : fastDiv n (makeFastDiv d) = n / d :=
  fastDiv_eq hd hd' hn

example : fastDiv 4294967295 (makeFastDiv 60001) = 71581 := by
  rw [C83_division (by decide) (by decide) (by decide)]

/-! ## The result -/

/-- The size of the clip and the radius fit into `int`. -/
structure Fits (c : PClip) (hradius vradius : Option Int) : Prop where
  row : c.vi.height * bps c.vi.format ≤ INT_MAX
  width : c.vi.width + given hradius ≤ 2 ^ 31
  height : c.vi.height + given vradius ≤ 2 ^ 31

theorem argOr1_eq (a : Option Int) (h : 0 ≤ given a) : argOr1 a = (count a : Nat) := by
  unfold argOr1 count given at *
  generalize a.getD 1 = v at *
  unfold int64ToIntS
  have : INT_MAX = 2147483647 := rfl
  have : INT_MIN = -2147483648 := rfl
  split
  · omega
  · split <;> omega

theorem count_small {a : Option Int} (h : 0 ≤ given a ∧ given a ≤ 30000) : (count a : Int) = given a := by
  unfold count
  have : INT_MAX = 2147483647 := rfl
  omega

/-- C83. `BoxBlur` accepts clips of at least 4 × 4 samples with 8 to 16 bit integer or 16 or 32 bit float samples. The result has the same
info and the same number of frames; the frames have the same format, size and properties. In the planes that are to be processed, the rows
are averaged `hpasses` times with `hradius`, then the columns `vpasses` times with `vradius`, no matter what is in new memory; all other
planes stay the same. -/
theorem C83_blur (F : Floats) {al : Nat} (ha : AlignOk al) {blk : Nat → Nat × Nat} (hb : blk = blkC ∨ blk = blkSse2) {c : PClip}
    (hv : ValidClip al c) (hwk : Workable c.vi.format) (hw : 4 ≤ c.vi.width) (hh : 4 ≤ c.vi.height) {planes : List Int}
    {hradius hpasses vradius vpasses : Option Int} (hargs : ArgsOk planes hradius hpasses vradius vpasses) (hfit : Fits c hradius vradius) :
    ∃ G, boxBlurCreate F al blk c.vi planes hradius hpasses vradius vpasses = .ok G ∧ G.info c.vi = some c.vi ∧
      ∀ j, ∃ d, G.eval c j = .ok d ∧ ValidClip al d ∧ d.vi = c.vi ∧ ∀ (n : Nat) f, c.frames[n]? = some f → ∃ k, d.frames[n]? = some k ∧
        k.fmt = f.fmt ∧ k.width = f.width ∧ k.height = f.height ∧ k.props = f.props ∧
        ∀ p x y : Nat, (p : Int) < f.fmt.numPlanes → x < f.w p → y < f.h p → smp al k p x y =
          if Wanted planes p ∨ f.fmt.numPlanes = 1 then
            blurred (rowFn F f.fmt (count hradius) (count hpasses)) (rowFn F f.fmt (count vradius) (count vpasses)) (f.w p) (f.h p)
              (fun x y => smp al f p x y) x y
          else smp al f p x y := by
  have hcon : Constant c.vi := ⟨by omega, by omega, hwk.1⟩
  have hc := (constant_iff _).2 hcon
  have e1 := count_small hargs.hradiusOk
  have e2 := count_small hargs.vradiusOk
  have f1 := hfit.width
  have f2 := hfit.height
  obtain ⟨process, hp1, hp2⟩ := planes_ok "BoxBlur" hargs.planesOk
  have hsome := hargs.some
  have h1 := hargs.hpassesOk
  have h2 := hargs.vpassesOk
  have c1 := count_small hargs.hradiusOk
  have hpc : ∀ a, 0 < given a → 0 < count a := fun a ha => by
    unfold count
    have : INT_MAX = 2147483647 := rfl
    omega
  unfold boxBlurCreate
  rw [if_neg (by rw [(workable_iff _).2 hwk]; decide), getPlanes_eq, hp1, Res.bind_ok]
  simp only [argOr1_eq _ h1, argOr1_eq _ h2, argOr1_eq _ hargs.hradiusOk.1, argOr1_eq _ hargs.vradiusOk.1, Int.toNat_natCast]
  rw [if_neg (by omega), if_neg (by omega), if_neg (by have := hargs.hradiusOk.2; have := hargs.vradiusOk.2; omega), if_neg (by
    rintro ⟨q1, q2⟩
    rcases hsome with ⟨u1, u2⟩ | ⟨u1, u2⟩
    · have := hpc _ u2
      omega
    · have := hpc _ u2
      omega), if_neg (by omega)]
  by_cases hone : c.vi.format.numPlanes = 1
  · rw [if_pos hone]
    obtain ⟨i1, i2, i3, i4, i5, i6, i7, i8⟩ := (info_iff c.vi).1 hv.info
    have hgood := (C20_struct_check c.vi.format hwk.1).1.1 i1
    have hgray : c.vi.format.colorFamily = cfGray := by
      have := hgood.2.2
      rw [hone] at this
      refine Decidable.byContradiction fun hn => ?_
      rw [if_neg hn] at this
      omega
    have hss := hgood.1.2.2.2.2 (by rw [hgray]; decide)
    have hgr : Gray c.vi.format := ⟨i1, hwk, hone, hss.1, hss.2⟩
    obtain ⟨f0, hf0, hm0⟩ := at_some hv 0
    obtain ⟨t1, t2, t3⟩ := plane_size hv hc hm0 0
    have r1 := (row_plane (hv.frames f0 hm0) 0).1
    have wz : ∀ f ∈ c.frames, f.width = f0.width ∧ f.height = f0.height ∧ f.fmt = c.vi.format := by
      intro f hf
      have z1 := hv.size f hf (by omega)
      have z2 := hv.size f0 hm0 (by omega)
      exact ⟨by omega, by omega, (plane_size hv hc hf 0).2.2⟩
    have z := hv.size f0 hm0 (by omega)
    have hbase : Makes al c .input c.vi (Plane al c.vi.format f0.width f0.height (fun f x y => smp al f 0 x y)) := (makes_input hv).mono hv (by
      rintro f k hf - rfl
      obtain ⟨z1, z2, z3⟩ := wz k hf
      exact ⟨z3, z1, z2, rfl, fun _ _ _ _ => rfl⟩)
    obtain ⟨g, q1, q2⟩ := makes_plane F ha hb hv hgr ⟨hv.info, rfl, z.1.symm, z.2.symm⟩ (by omega) (by omega) (by rw [w_zero, t3] at r1; exact r1)
      (by rw [z.2]; exact hfit.row) hbase (r := count hradius) (n := count hpasses) (r' := count vradius) (n' := count vpasses)
      (by have := hargs.hradiusOk.2; omega) (by omega) (by have := hargs.vradiusOk.2; omega) (by omega)
    refine ⟨g, q1, q2.1, fun j => ?_⟩
    obtain ⟨d, d1, d2, d3, d4⟩ := q2.2.2 j
    refine ⟨d, d1, d2, d3, fun n f hf => ?_⟩
    obtain ⟨k, k0, k1, k2, k3, k4, k5⟩ := d4 n f hf
    obtain ⟨z1, z2, z3⟩ := wz f (List.mem_of_getElem? hf)
    refine ⟨k, k0, k1.trans z3.symm, by omega, by omega, k4, ?_⟩
    intro p x y hp hx hy
    rw [z3, hone] at hp
    have : p = 0 := by omega
    subst this
    rw [w_zero] at hx
    rw [h_zero] at hy
    rw [if_pos (Or.inr (by rw [z3, hone])), k5 x y (by omega) (by omega), w_zero, h_zero, z1, z2, z3]
  · rw [if_neg hone]
    have h3 : c.vi.format.numPlanes = 3 := by
      have := ((C20_struct_check c.vi.format hwk.1).1.1 ((info_iff c.vi).1 hv.info).1).2.2
      split at this <;> omega
    have part : ∀ p : Nat, p < 3 → _ := fun p hp => makes_part F ha hb hv hcon hwk hfit.row (p := p) (by omega) (process := process)
      (r := count hradius) (n := count hpasses) (r' := count vradius) (n' := count vpasses)
      (by have := hargs.hradiusOk.2; omega) (by omega) (by have := hargs.vradiusOk.2; omega) (by omega)
    obtain ⟨g0, v0, a1, a2, a3⟩ := part 0 (by omega)
    obtain ⟨g1, v1, b1, b2, b3⟩ := part 1 (by omega)
    obtain ⟨g2, v2, c1, c2, c3⟩ := part 2 (by omega)
    rw [show (if process.getD 0 false = true then 0 else 0) = 0 by split <;> rfl] at a2 a3
    rw [a1, Res.bind_ok, b1, Res.bind_ok, c1, Res.bind_ok, info_eq a3, Res.bind_ok, info_eq b3, Res.bind_ok, info_eq c3, Res.bind_ok]
    have cast1 : (if process.getD 1 false = true then (0 : Int) else 1) = ((if process.getD 1 false = true then 0 else 1 : Nat) : Int) := by split <;> rfl
    have cast2 : (if process.getD 2 false = true then (0 : Int) else 2) = ((if process.getD 2 false = true then 0 else 2 : Nat) : Int) := by split <;> rfl
    rw [cast1, cast2]
    obtain ⟨f, s1, s2, s3⟩ := three_create hv hcon h3 a2 b2 c2
    rw [s1]
    have m := makes_three hv hcon h3 a2 b2 c2 a3 b3 c3 s1 s2
    refine ⟨_, rfl, m.1, fun j => ?_⟩
    obtain ⟨d, d1, d2, d3, d4⟩ := m.2.2 j
    refine ⟨d, d1, d2, d3, fun n f hf => ?_⟩
    obtain ⟨k, k0, k1, k2, k3, k4, k5⟩ := d4 n f hf
    refine ⟨k, k0, k1, k2, k3, k4, ?_⟩
    intro p x y hp hx hy
    have z3 := (plane_size hv hc (List.mem_of_getElem? hf) 0).2.2
    rw [k5 p x y hp hx hy]
    rw [z3, h3] at hp
    have hn1 : ¬ (f.fmt.numPlanes = 1) := by rw [z3, h3]; decide
    have hwant : (Wanted planes p ∨ f.fmt.numPlanes = 1) ↔ process.getD p false = true := by
      rw [hp2 p (by omega)]
      simp [hn1]
    simp only [hwant]
    have : p = 0 ∨ p = 1 ∨ p = 2 := by omega
    rcases this with rfl | rfl | rfl
    · rw [if_pos rfl]; split <;> rfl
    · rw [if_neg (by decide), if_pos rfl]; split <;> rfl
    · rw [if_neg (by decide), if_neg (by decide)]; split <;> rfl

/-! ### An example -/

/-- A gray clip of 4 × 4 samples: everything is 0 but one sample. -/
def dot (v : Nat) : PClip := clip1 gray8 4 4 (fun _ i => if i = 0 then v else 0) Dict.empty

theorem dot_valid (v : Nat) : ValidClip 32 (dot v) := clip1_valid ⟨rfl, by decide, by decide, by decide, by decide, by decide, by decide, by decide⟩ _ _

theorem gray8_work : Workable gray8 := by unfold Workable; decide

example (F : Floats) : Workable (dot 90).vi.format ∧ ArgsOk [] (some 1) (some 1) none none ∧ Fits (dot 90) (some 1) none ∧
    ∃ f, (dot 90).frames[0]? = some f ∧ f.fmt.numPlanes = 1 ∧ smp 32 f 0 0 0 = 90 ∧
      blurred (rowFn F f.fmt 1 1) (rowFn F f.fmt 1 1) (f.w 0) (f.h 0) (fun x y => smp 32 f 0 x y) 0 0 = 40 := by
  refine ⟨gray8_work, ⟨by decide, by decide, by decide, by decide, by decide, by decide⟩, ⟨by decide, by decide, by decide⟩, _, rfl, by decide, by decide, ?_⟩
  unfold rowFn
  rw [if_neg (by decide)]
  decide +kernel

/-! ## Integer samples -/

theorem blurred_bounds {lo hi r n r' n' w h : Nat} (hw : 0 < w) (hh : 0 < h) {S : Nat → Nat → Nat} (hS : ∀ x y, x < w → y < h → lo ≤ S x y ∧ S x y ≤ hi)
    {x y : Nat} (hx : x < w) (hy : y < h) : lo ≤ blurred (intFn r n) (intFn r' n') w h S x y ∧ blurred (intFn r n) (intFn r' n') w h S x y ≤ hi := by
  unfold blurred intFn
  exact ⟨boxes_ge hh (fun y hy => boxes_ge hw (fun x hx => (hS x y hx hy).1) n x hx) n' y hy,
    boxes_le hh (fun y hy => boxes_le hw (fun x hx => (hS x y hx hy).2) n x hx) n' y hy⟩

theorem int_bounds (F : Floats) {f : VFmt} (ht : f.sampleType = stInteger) {lo hi r n r' n' w h : Nat} (hw : 0 < w) (hh : 0 < h) {S : Nat → Nat → Nat}
    (hS : ∀ x y, x < w → y < h → lo ≤ S x y ∧ S x y ≤ hi) {x y : Nat} (hx : x < w) (hy : y < h) :
    lo ≤ blurred (rowFn F f r n) (rowFn F f r' n') w h S x y ∧ blurred (rowFn F f r n) (rowFn F f r' n') w h S x y ≤ hi := by
  have hf : ∀ r n, rowFn F f r n = intFn r n := fun r n => if_neg (by rw [ht]; decide)
  rw [hf, hf]
  exact blurred_bounds hw hh hS hx hy

example : ∃ S : Nat → Nat → Nat, (∀ x y, x < 4 → y < 4 → 3 ≤ S x y ∧ S x y ≤ 90) ∧ blurred (intFn 1 1) (intFn 1 1) 4 4 S 0 0 = 42 :=
  ⟨fun x y => if x = 0 ∧ y = 0 then 90 else 3, fun x y _ _ => by dsimp only; split <;> omega, by decide +kernel⟩

theorem boxSum_mono {r w : Nat} (hw : 0 < w) {s t : Nat → Nat} (h : ∀ x, x < w → s x ≤ t x) (x : Nat) : boxSum r w s x ≤ boxSum r w t x := by
  unfold boxSum
  generalize 2 * r + 1 = n
  induction n with
  | zero => exact Nat.le_refl _
  | succ n ih => exact Nat.add_le_add ih (h _ (by omega))

theorem boxes_mono {r w : Nat} (hw : 0 < w) {s t : Nat → Nat} (h : ∀ x, x < w → s x ≤ t x) : ∀ n x, x < w → boxes r w n s x ≤ boxes r w n t x
  | 0, x, hx => h x hx
  | n + 1, x, _ => Nat.div_le_div_right (Nat.add_le_add_right (boxSum_mono hw (boxes_mono hw h n) x) _)

theorem int_mono (F : Floats) {f : VFmt} (ht : f.sampleType = stInteger) {r n r' n' w h : Nat} (hw : 0 < w) (hh : 0 < h) {S T : Nat → Nat → Nat}
    (hST : ∀ x y, x < w → y < h → S x y ≤ T x y) {x y : Nat} (hx : x < w) (hy : y < h) :
    blurred (rowFn F f r n) (rowFn F f r' n') w h S x y ≤ blurred (rowFn F f r n) (rowFn F f r' n') w h T x y := by
  have hf : ∀ r n, rowFn F f r n = intFn r n := fun r n => if_neg (by rw [ht]; decide)
  rw [hf, hf]
  exact boxes_mono hh (fun y hy => boxes_mono hw (fun x hx => hST x y hx hy) n x hx) n' y hy

example : blurred (intFn 1 1) (intFn 1 1) 4 4 (fun x y => x + y) 1 1 = 2 ∧ blurred (intFn 1 1) (intFn 1 1) 4 4 (fun x y => 2 * x + y) 1 1 = 3 := by decide +kernel

theorem boxes_near {r w : Nat} (hw : 0 < w) {s t : Nat → Nat} : ∀ n x, x < w → (∀ x', x' < w → x' ≤ x + r * n → x ≤ x' + r * n → s x' = t x') →
    boxes r w n s x = boxes r w n t x
  | 0, x, hx, h => h x hx (by omega) (by omega)
  | n + 1, x, hx, h => by
    show boxRow _ _ _ _ _ = boxRow _ _ _ _ _
    unfold boxRow
    congr 2
    unfold boxSum
    refine sumTo_congr (fun k hk => ?_)
    refine boxes_near hw n _ (by omega) ?_
    intro x' h1 h2 h3
    have hm : r * (n + 1) = r * n + r := Nat.mul_succ r n
    refine h x' h1 ?_ ?_
    · omega
    · omega

theorem int_reach (F : Floats) {f : VFmt} (ht : f.sampleType = stInteger) {r n r' n' w h : Nat} (hw : 0 < w) (hh : 0 < h) {S T : Nat → Nat → Nat}
    {x y : Nat} (hx : x < w) (hy : y < h)
    (hST : ∀ x' y', x' < w → y' < h → x' ≤ x + r * n → x ≤ x' + r * n → y' ≤ y + r' * n' → y ≤ y' + r' * n' → S x' y' = T x' y') :
    blurred (rowFn F f r n) (rowFn F f r' n') w h S x y = blurred (rowFn F f r n) (rowFn F f r' n') w h T x y := by
  have hf : ∀ r n, rowFn F f r n = intFn r n := fun r n => if_neg (by rw [ht]; decide)
  rw [hf, hf]
  exact boxes_near hh n' y hy (fun y' h1 h2 h3 => boxes_near hw n x hx (fun x' g1 g2 g3 => hST x' y' g1 h1 g2 g3 h2 h3))

/-- The distance cannot be made smaller. -/
example : blurred (intFn 1 2) (intFn 0 0) 8 1 (fun _ _ => 0) 2 0 = 0 ∧
    blurred (intFn 1 2) (intFn 0 0) 8 1 (fun x _ => if x = 0 then 90 else 0) 2 0 = 10 ∧
    blurred (intFn 1 2) (intFn 0 0) 8 1 (fun x _ => if x = 0 then 90 else 0) 3 0 = 0 := by decide +kernel

/-- The frames of `BoxBlur` for a frame of the clip. -/
def Result (F : Floats) (al : Nat) (blk : Nat → Nat × Nat) (c : PClip) (planes : List Int) (hradius hpasses vradius vpasses : Option Int) (f k : Frm) :
    Prop :=
  ∃ G j d, boxBlurCreate F al blk c.vi planes hradius hpasses vradius vpasses = .ok G ∧ G.eval c j = .ok d ∧
    ∃ n : Nat, c.frames[n]? = some f ∧ d.frames[n]? = some k

section
variable (F : Floats) {al : Nat} (ha : AlignOk al) {blk : Nat → Nat × Nat} (hb : blk = blkC ∨ blk = blkSse2) {c : PClip}
  (hv : ValidClip al c) (hwk : Workable c.vi.format) (hw : 4 ≤ c.vi.width) (hh : 4 ≤ c.vi.height) {planes : List Int}
  {hradius hpasses vradius vpasses : Option Int} (hargs : ArgsOk planes hradius hpasses vradius vpasses) (hfit : Fits c hradius vradius)
include ha hb hv hwk hw hh hargs hfit

theorem result_smp {f k : Frm} (h : Result F al blk c planes hradius hpasses vradius vpasses f k) :
    f ∈ c.frames ∧ k.fmt = f.fmt ∧ k.width = f.width ∧ k.height = f.height ∧
    ∀ p x y : Nat, (p : Int) < f.fmt.numPlanes → x < f.w p → y < f.h p → smp al k p x y =
      if Wanted planes p ∨ f.fmt.numPlanes = 1 then
        blurred (rowFn F f.fmt (count hradius) (count hpasses)) (rowFn F f.fmt (count vradius) (count vpasses)) (f.w p) (f.h p)
          (fun x y => smp al f p x y) x y
      else smp al f p x y := by
  obtain ⟨G, j, d, e1, e2, n, e3, e4⟩ := h
  obtain ⟨G', h1, -, h2⟩ := C83_blur F ha hb hv hwk hw hh hargs hfit
  have : G = G' := Res.ok.inj (e1.symm.trans h1)
  subst this
  obtain ⟨d', d1, -, -, d4⟩ := h2 j
  have : d = d' := Res.ok.inj (e2.symm.trans d1)
  subst this
  obtain ⟨k', k1, k2, k3, k4, -, k5⟩ := d4 n f e3
  have : k = k' := Option.some.inj (e4.symm.trans k1)
  subst this
  exact ⟨List.mem_of_getElem? e3, k2, k3, k4, k5⟩

/-- C83. Integer samples of the result are never below the smallest and never above the largest sample of the plane. In particular planes
with only one value stay the same, whatever the radius and the number of passes. -/
theorem C83_bounds (ht : c.vi.format.sampleType = stInteger) {f k : Frm} (h : Result F al blk c planes hradius hpasses vradius vpasses f k) {p lo hi : Nat}
    (hp : (p : Int) < f.fmt.numPlanes) (hS : ∀ x y, x < f.w p → y < f.h p → lo ≤ smp al f p x y ∧ smp al f p x y ≤ hi) {x y : Nat}
    (hx : x < k.w p) (hy : y < k.h p) : lo ≤ smp al k p x y ∧ smp al k p x y ≤ hi := by
  obtain ⟨hm, h1, h2, h3, h4⟩ := result_smp F ha hb hv hwk hw hh hargs hfit h
  rw [w_eq h1 h2] at hx
  rw [h_eq h1 h3] at hy
  rw [h4 p x y hp hx hy]
  have hf := hv.fmt f hm hwk.1
  split
  · exact int_bounds F (by rw [hf]; exact ht) (by omega) (by omega) hS hx hy
  · exact hS x y hx hy

/-- C83. Brighter pictures stay brighter: if no integer sample of a plane of one clip is larger than that of another clip of the same format and
size, this is so after `BoxBlur`, too. -/
theorem C83_mono (ht : c.vi.format.sampleType = stInteger) {c' : PClip} (hv' : ValidClip al c') (hvi : c'.vi = c.vi) {f k f' k' : Frm}
    (h : Result F al blk c planes hradius hpasses vradius vpasses f k) (h' : Result F al blk c' planes hradius hpasses vradius vpasses f' k') {p : Nat}
    (hp : (p : Int) < f.fmt.numPlanes) (hS : ∀ x y, x < f.w p → y < f.h p → smp al f p x y ≤ smp al f' p x y) {x y : Nat}
    (hx : x < k.w p) (hy : y < k.h p) : smp al k p x y ≤ smp al k' p x y := by
  obtain ⟨hm, h1, h2, h3, h4⟩ := result_smp F ha hb hv hwk hw hh hargs hfit h
  obtain ⟨hm', h1', h2', h3', h4'⟩ := result_smp F ha hb hv' (by rw [hvi]; exact hwk) (by rw [hvi]; exact hw) (by rw [hvi]; exact hh) hargs
    ⟨by rw [hvi]; exact hfit.row, by rw [hvi]; exact hfit.width, by rw [hvi]; exact hfit.height⟩ h'
  rw [w_eq h1 h2] at hx
  rw [h_eq h1 h3] at hy
  have hf := hv.fmt f hm hwk.1
  have hf' : f'.fmt = f.fmt := by rw [hf, hv'.fmt f' hm' (by rw [hvi]; exact hwk.1), hvi]
  have z := hv.size f hm (by omega)
  have z' := hv'.size f' hm' (by rw [hvi]; omega)
  rw [hvi] at z'
  have ew : f'.w p = f.w p := w_eq hf' (by omega) p
  have eh : f'.h p = f.h p := h_eq hf' (by omega) p
  rw [h4 p x y hp hx hy, h4' p x y (by rw [hf']; exact hp) (by omega) (by omega), hf', ew, eh]
  split
  · exact int_mono F (by rw [hf]; exact ht) (by omega) (by omega) hS hx hy
  · exact hS x y hx hy

/-- C83. A sample of the result for integer samples depends only on samples at most `hradius * hpasses` columns and `vradius * vpasses` rows away. -/
theorem C83_reach (ht : c.vi.format.sampleType = stInteger) {c' : PClip} (hv' : ValidClip al c') (hvi : c'.vi = c.vi) {f k f' k' : Frm}
    (h : Result F al blk c planes hradius hpasses vradius vpasses f k) (h' : Result F al blk c' planes hradius hpasses vradius vpasses f' k') {p : Nat}
    (hp : (p : Int) < f.fmt.numPlanes) {x y : Nat} (hx : x < k.w p) (hy : y < k.h p)
    (hS : ∀ x' y', x' < f.w p → y' < f.h p → x' ≤ x + count hradius * count hpasses → x ≤ x' + count hradius * count hpasses →
      y' ≤ y + count vradius * count vpasses → y ≤ y' + count vradius * count vpasses → smp al f p x' y' = smp al f' p x' y') :
    smp al k p x y = smp al k' p x y := by
  obtain ⟨hm, h1, h2, h3, h4⟩ := result_smp F ha hb hv hwk hw hh hargs hfit h
  obtain ⟨hm', h1', h2', h3', h4'⟩ := result_smp F ha hb hv' (by rw [hvi]; exact hwk) (by rw [hvi]; exact hw) (by rw [hvi]; exact hh) hargs
    ⟨by rw [hvi]; exact hfit.row, by rw [hvi]; exact hfit.width, by rw [hvi]; exact hfit.height⟩ h'
  rw [w_eq h1 h2] at hx
  rw [h_eq h1 h3] at hy
  have hf := hv.fmt f hm hwk.1
  have hf' : f'.fmt = f.fmt := by rw [hf, hv'.fmt f' hm' (by rw [hvi]; exact hwk.1), hvi]
  have z := hv.size f hm (by omega)
  have z' := hv'.size f' hm' (by rw [hvi]; omega)
  rw [hvi] at z'
  have ew : f'.w p = f.w p := w_eq hf' (by omega) p
  have eh : f'.h p = f.h p := h_eq hf' (by omega) p
  rw [h4 p x y hp hx hy, h4' p x y (by rw [hf']; exact hp) (by omega) (by omega), hf', ew, eh]
  split
  · exact int_reach F (by rw [hf]; exact ht) (by omega) (by omega) hx hy hS
  · exact hS x y hx hy (by omega) (by omega) (by omega) (by omega)

end

/-- There are such frames. -/
example (F : Floats) : ∃ f k, Result F 32 blkC (dot 90) [] none none none none f k := by
  obtain ⟨G, e, -, hG⟩ := C83_blur F (al := 32) (Or.inl rfl) (blk := blkC) (Or.inl rfl) (dot_valid 90) gray8_work (by decide) (by decide) (planes := [])
    (hradius := none) (hpasses := none) (vradius := none) (vpasses := none)
    ⟨by decide, by decide, by decide, by decide, by decide, by decide⟩ ⟨by decide, by decide, by decide⟩
  obtain ⟨d, d1, -, -, d4⟩ := hG (fun _ _ _ _ => 0)
  obtain ⟨k, k1, -⟩ := d4 0 _ rfl
  exact ⟨_, k, G, _, d, e, d1, 0, rfl, k1⟩

/-! ## Float samples -/

theorem run_nan {F : Floats} {nan : F.A} (h1 : ∀ a, F.add nan a = nan) (h2 : ∀ a, F.add a nan = nan) (h3 : ∀ a, F.sub nan a = nan) {k : Kind}
    {r w : Nat} {s : Nat → Nat} {i : Nat} (hr : r ≤ i) (hi : i < w) (hn : F.load k (s i) = nan) : ∀ x, i ≤ x + r → Spec.run F k r w s x = nan
  | 0, h => by
    have : i = r := by omega
    unfold Spec.run
    rw [show min r (w - 1) = i by omega, hn, h2]
  | x + 1, h => by
    by_cases he : i = x + 1 + r
    · unfold Spec.run
      rw [show min (x + 1 + r) (w - 1) = i by omega, hn, h2]
    · unfold Spec.run
      rw [run_nan h1 h2 h3 hr hi hn x (by omega), h3, h1]

/-- C83, refuted. For float samples there is no such bound: one sample that is not a number (or infinite, as infinity minus infinity is not a
number) spoils everything to the right of it up to the end of the row, not only `radius` columns, as it never gets out of the sum that
moves along the row. Below it spoils everything in the columns. -/
theorem C83_reach_float_refuted {F : Floats} {nan : F.A} (h1 : ∀ a, F.add nan a = nan) (h2 : ∀ a, F.add a nan = nan) (h3 : ∀ a, F.sub nan a = nan)
    {k : Kind} {r w : Nat} {s : Nat → Nat} {i : Nat} (hr0 : 0 < r) (hr : r ≤ i) (hi : i < w) (hn : F.load k (s i) = nan) {x : Nat} (hx : i ≤ x + r) :
    floatFn F k r 1 w s x = F.out k r nan % 256 ^ k.bytes := by
  unfold floatFn
  rw [if_pos hr0]
  show F.out k r (Spec.run F k r w s x) % _ = _
  rw [run_nan h1 h2 h3 hr hi hn x hx]

/-- Numbers where 255 is not a number: a row of 100 samples, radius 1, one sample at column 1. -/
example : ∃ (F : Floats) (nan : F.A) (s : Nat → Nat), (∀ a, F.add nan a = nan) ∧ (∀ a, F.add a nan = nan) ∧ (∀ a, F.sub nan a = nan) ∧
    (∀ x, x ≠ 1 → s x = 3) ∧ floatFn F .single 1 1 100 s 99 = 255 ∧ floatFn F .single 1 1 100 (fun _ => 3) 99 = 3 := by
  refine ⟨⟨Option Nat, fun _ v => if v = 255 then none else some v, fun r a => a.map (r * ·), fun a b => a.bind fun a => b.map (a + ·),
    fun a b => a.bind fun a => b.map (a - ·), fun _ r a => match a with | none => 255 | some v => v / (2 * r + 1)⟩, none,
    fun x => if x = 1 then 255 else 3, fun _ => rfl, fun a => by cases a <;> rfl, fun _ => rfl, fun x hx => if_neg hx, ?_, ?_⟩
  · rw [C83_reach_float_refuted (nan := none) (fun _ => rfl) (fun a => by cases a <;> rfl) (fun _ => rfl) (i := 1) (by decide) (by decide) (by decide) rfl
      (by decide)]
    rfl
  · decide +kernel

/-! ## What is refused -/

/-- C83. Formats with more than 16 bits for integers, sizes below 4 × 4 and bad arguments are errors. -/
theorem C83_refuses (F : Floats) (al : Nat) (blk : Nat → Nat × Nat) {vi : VInfo} {planes : List Int} {hradius hpasses vradius vpasses : Option Int}
    (h : ¬ (Workable vi.format ∧ 4 ≤ vi.width ∧ 4 ≤ vi.height ∧ ArgsOk planes hradius hpasses vradius vpasses)) :
    ∃ m, boxBlurCreate F al blk vi planes hradius hpasses vradius vpasses = .err m := by
  unfold boxBlurCreate
  by_cases h1 : Workable vi.format
  case neg =>
    rw [if_pos (by
      have : is8to16orFloat vi.format ≠ true := fun hh => h1 ((workable_iff _).1 hh)
      simpa using this)]
    exact ⟨_, rfl⟩
  rw [if_neg (by rw [(workable_iff _).2 h1]; decide), getPlanes_eq]
  by_cases h2 : PlanesOk planes
  case neg =>
    obtain ⟨m, e⟩ := planes_bad "BoxBlur" h2
    rw [e]
    exact ⟨_, rfl⟩
  obtain ⟨r, e, _⟩ := planes_ok "BoxBlur" h2
  rw [e, Res.bind_ok]
  have sat : ∀ a : Option Int, (argOr1 a < 0 ↔ given a < 0) ∧ (argOr1 a > 30000 ↔ given a > 30000) ∧ (argOr1 a > 0 ↔ given a > 0) := by
    intro a
    unfold argOr1 given
    generalize a.getD 1 = v
    unfold int64ToIntS
    have : INT_MAX = 2147483647 := rfl
    have : INT_MIN = -2147483648 := rfl
    split
    · omega
    · split <;> omega
  obtain ⟨a1, a2, a3⟩ := sat hradius
  obtain ⟨b1, b2, b3⟩ := sat hpasses
  obtain ⟨c1, c2, c3⟩ := sat vradius
  obtain ⟨d1, d2, d3⟩ := sat vpasses
  dsimp only
  split
  · exact ⟨_, rfl⟩
  split
  · exact ⟨_, rfl⟩
  split
  · exact ⟨_, rfl⟩
  split
  · exact ⟨_, rfl⟩
  split
  · exact ⟨_, rfl⟩
  · exact absurd ⟨h1, by omega, by omega, h2, by omega, by omega, by omega, by omega, by omega⟩ h

example : ¬ ArgsOk [] (some 30001) none none none := fun h => absurd h.hradiusOk.2 (by decide)

/-- The largest arguments. -/
example : ArgsOk [2, 0] (some 30000) (some 9223372036854775807) (some 0) (some 0) ∧ count (some 9223372036854775807) = 2147483647 :=
  ⟨⟨by decide, by decide, by decide, by decide, by decide, by decide⟩, by decide⟩

/-! ## Planes -/

/-- C83, refuted. In clips with a single plane `planes` is ignored: with `planes=[1]` the first plane is not to be processed, but it is. -/
theorem C83_planes_refuted (F : Floats) : ∃ (c : PClip) (planes : List Int) (f : Frm), ValidClip 32 c ∧ c.frames[0]? = some f ∧ ¬ Wanted planes 0 ∧
    PlanesOk planes ∧ ∃ G, boxBlurCreate F 32 blkC c.vi planes none none none none = .ok G ∧ ∀ j, ∃ d k, G.eval c j = .ok d ∧
      d.frames[0]? = some k ∧ smp 32 k 0 0 0 ≠ smp 32 f 0 0 0 := by
  refine ⟨dot 90, [1], _, dot_valid 90, rfl, by decide, by decide, ?_⟩
  obtain ⟨G, e, -, hG⟩ := C83_blur F (al := 32) (Or.inl rfl) (blk := blkC) (Or.inl rfl) (dot_valid 90) gray8_work (by decide) (by decide) (planes := [1])
    (hradius := none) (hpasses := none) (vradius := none) (vpasses := none)
    ⟨by decide, by decide, by decide, by decide, by decide, by decide⟩ ⟨by decide, by decide, by decide⟩
  refine ⟨G, e, fun j => ?_⟩
  obtain ⟨d, d1, -, -, d4⟩ := hG j
  obtain ⟨k, k1, -, -, -, -, k2⟩ := d4 0 _ rfl
  refine ⟨d, k, d1, k1, ?_⟩
  rw [k2 0 0 0 (by decide) (by decide) (by decide), if_pos (Or.inr (by decide))]
  unfold rowFn
  rw [if_neg (by decide)]
  decide +kernel

end VS.Blur
