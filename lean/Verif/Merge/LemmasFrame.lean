import Verif.Merge.LemmasKernel
import Verif.Point.LemmasClip

/-! # The frames of the merge filters -/

namespace VS.Merge
open VS VS.Format VS.Map VS.Map.Spec VS.Pix VS.Pix.Spec VS.Point VS.Point.Spec VS.Merge.Spec

theorem plane2_ok {al : Nat} (ha : 0 < al) {s1 s2 : Frm} (v1 : Valid al s1) (v2 : Valid al s2) {p q : Nat}
    (hp : (p : Int) < s1.fmt.numPlanes) (hq : (q : Int) < s2.fmt.numPlanes) {n1 n2 st1 st2 n st w h : Nat}
    (e1 : n1 = bps s1.fmt) (t1 : st1 = s1.stride al p) (e2 : n2 = bps s2.fmt) (t2 : st2 = s2.stride al q)
    (w1 : w = s1.w p) (w2 : w = s2.w q) (h1 : h = s1.h p) (h2 : h = s2.h q) {px : Nat → Nat → Res Nat} {G : Nat → Nat → Nat}
    (hpx : ∀ x y, x < w → y < h → px (smp al s1 p x y) (smp al s2 q x y) = .ok (G x y)) (hs : w * n ≤ st) {b : Buf}
    (hb : b.size = st * h) :
    ∃ b', plane2 s1 s2 p q n1 st1 n2 st2 n st w h px b = .ok b' ∧ b'.size = b.size ∧
      ∀ x y k, x < w → y < h → k < n → b'.byte (y * st + x * n + k) = leByte (G x y) k := by
  obtain ⟨b1, g1, f1, _⟩ := v1.plane_ok hp
  obtain ⟨b2, g2, f2, _⟩ := v2.plane_ok hq
  unfold plane2
  rw [f1, Res.bind_ok, f2, Res.bind_ok]
  refine fill_ok hs ?_ hb
  intro x y hx hy
  rw [e1, t1, rd_smp ha v1 g1 (w1 ▸ hx) (h1 ▸ hy), Res.bind_ok, e2, t2, rd_smp ha v2 g2 (w2 ▸ hx) (h2 ▸ hy), Res.bind_ok]
  exact hpx x y hx hy

theorem plane3_ok {al : Nat} (ha : 0 < al) {s1 s2 s3 : Frm} (v1 : Valid al s1) (v2 : Valid al s2) (v3 : Valid al s3) {p q : Nat}
    (hp : (p : Int) < s1.fmt.numPlanes) (hp2 : (p : Int) < s2.fmt.numPlanes) (hq : (q : Int) < s3.fmt.numPlanes)
    {n st w h : Nat} (e1 : n = bps s1.fmt) (t1 : st = s1.stride al p) (e2 : n = bps s2.fmt) (t2 : st = s2.stride al p)
    (e3 : n = bps s3.fmt) (t3 : st = s3.stride al q)
    (w1 : w = s1.w p) (w2 : w = s2.w p) (w3 : w = s3.w q) (h1 : h = s1.h p) (h2 : h = s2.h p) (h3 : h = s3.h q)
    {px : Nat → Nat → Nat → Res Nat} {G : Nat → Nat → Nat}
    (hpx : ∀ x y, x < w → y < h → px (smp al s1 p x y) (smp al s2 p x y) (smp al s3 q x y) = .ok (G x y)) {b : Buf}
    (hb : b.size = st * h) :
    ∃ b', plane3 s1 s2 s3 p q n st w h px b = .ok b' ∧ b'.size = b.size ∧
      ∀ x y k, x < w → y < h → k < n → b'.byte (y * st + x * n + k) = leByte (G x y) k := by
  obtain ⟨b1, g1, f1, _⟩ := v1.plane_ok hp
  obtain ⟨b2, g2, f2, _⟩ := v2.plane_ok hp2
  obtain ⟨b3, g3, f3, _⟩ := v3.plane_ok hq
  unfold plane3
  rw [f1, Res.bind_ok, f2, Res.bind_ok, f3, Res.bind_ok]
  refine fill_ok (by rw [w1, e1, t1]; exact stride_ge ha s1 p) ?_ hb
  intro x y hx hy
  have r1 := rd_smp ha v1 g1 (w1 ▸ hx) (h1 ▸ hy)
  have r2 := rd_smp ha v2 g2 (w2 ▸ hx) (h2 ▸ hy)
  have r3 := rd_smp ha v3 g3 (w3 ▸ hx) (h3 ▸ hy)
  rw [← e1, ← t1] at r1
  rw [← e2, ← t2] at r2
  rw [← e3, ← t3] at r3
  rw [r1, Res.bind_ok, r2, Res.bind_ok, r3, Res.bind_ok]
  exact hpx x y hx hy

/-- The samples fit into the bytes. -/
theorem in_byte {al : Nat} {f : Frm} (p x y : Nat) : smp al f p x y < 256 ^ bps f.fmt := smp_lt f p x y

/-! ## Merge -/

/-- What Merge computes in plane `p`. -/
def mergeOut (F : Floats) (f : VFmt) (w : Rat × Nat) (v1 v2 : Nat) : Nat :=
  if mergeProcess f w = 0 then
    match kindOf f with
    | some k => mergeKernel F k w v1 v2 % 256 ^ bps f
    | none => 0
  else if mergeProcess f w = 1 then v1 else v2

theorem mergeFrame_ok {al : Nat} (ha : 0 < al) {F : Floats} {vi : VInfo} {s1 s2 : Frm} (v1 : Valid al s1) (v2 : Valid al s2)
    (e1 : s1.fmt = vi.format) (e2 : (s1.width : Int) = vi.width) (e3 : (s1.height : Int) = vi.height)
    (f1 : s2.fmt = s1.fmt) (f2 : s2.width = s1.width) (f3 : s2.height = s1.height) (hw : Workable vi.format)
    (ws : List (Rat × Nat)) (junk : Junk) :
    ∃ g, mergeFrame F al vi ws s1 s2 junk = .ok g ∧ Valid al g ∧ g.fmt = vi.format ∧ g.width = s1.width ∧ g.height = s1.height ∧
      g.props = s1.props ∧ ∀ p x y : Nat, (p : Int) < vi.format.numPlanes → x < g.w p → y < g.h p →
        smp al g p x y = mergeOut F vi.format (ws.getD p (0, 0)) (smp al s1 p x y) (smp al s2 p x y) := by
  obtain ⟨k, hk, hkb, _⟩ := kind_ok (e1 ▸ v1.fmt) hw
  have hnp := (fmtOk v1.fmt v1.known).planes
  rw [e1] at hnp
  unfold mergeFrame
  dsimp only
  rw [← e2, ← e3]
  let src : Nat → Option (Frm × Int) := fun p =>
    if mergeProcess vi.format (ws.getD p (0, 0)) = 0 then none
    else if mergeProcess vi.format (ws.getD p (0, 0)) = 1 then some (s1, (p : Int)) else some (s2, (p : Int))
  have hsrc : ∀ p : Nat, (p : Int) < vi.format.numPlanes → ([0, 1, 2].map src)[p]? = some (src p) := by
    intro p hp
    match p, (show p < 3 by omega) with
    | 0, _ => rfl
    | 1, _ => rfl
    | 2, _ => rfl
  obtain ⟨g, e, v, g1, g2, g3, g4, g5, g6⟩ := makeOpt_ok (al := al) (e1 ▸ v1.geo) s1.props junk ([0, 1, 2].map src)
    (fun p b => if mergeProcess vi.format (ws.getD p (0, 0)) = 0 then
      match kindOf vi.format with
      | none => .ok b
      | some k => plane2 s1 s2 p p k.bytes (s1.stride al p) k.bytes (s1.stride al p) k.bytes (s1.stride al p) (s2.w p) (s1.h p)
          (fun v1 v2 => .ok (mergeKernel F k (ws.getD p (0, 0)) v1 v2)) b
      else .ok b)
    (fun p x y => mergeKernel F k (ws.getD p (0, 0)) (smp al s1 p x y) (smp al s2 p x y))
    (by rw [List.length_map]; show _ ≤ (3 : Int); omega)
    (by
      intro j s p hj hs
      rw [hsrc j hj, Option.some.injEq] at hs
      dsimp only [src] at hs
      by_cases c0 : mergeProcess vi.format (ws.getD j (0, 0)) = 0
      · rw [if_pos c0] at hs
        exact absurd hs (by simp)
      · rw [if_neg c0] at hs
        refine ⟨?_, fun b => if_neg c0⟩
        by_cases c1 : mergeProcess vi.format (ws.getD j (0, 0)) = 1
        · rw [if_pos c1, Option.some.injEq, Prod.mk.injEq] at hs
          obtain ⟨rfl, rfl⟩ := hs
          exact takes_self v1 (e1 ▸ hj) e1 rfl rfl
        · rw [if_neg c1, Option.some.injEq, Prod.mk.injEq] at hs
          obtain ⟨rfl, rfl⟩ := hs
          exact takes_self v2 (by rw [f1, e1]; exact hj) (by rw [f1, e1]) f2 f3)
    (by
      intro p b hp hs hb
      rw [hsrc p hp, Option.some.injEq] at hs
      dsimp only [src] at hs
      have c0 : mergeProcess vi.format (ws.getD p (0, 0)) = 0 := by
        by_cases c0 : mergeProcess vi.format (ws.getD p (0, 0)) = 0
        · exact c0
        · rw [if_neg c0] at hs
          split at hs <;> exact absurd hs (by simp)
      rw [if_pos c0, hk]
      have est : Frame.strideOf al (s1.width / 2 ^ ssw vi.format p) (bps vi.format) = s1.stride al p := by
        unfold Frm.stride Frm.w; rw [e1]
      have ew : s1.width / 2 ^ ssw vi.format p = s1.w p := by unfold Frm.w; rw [e1]
      have eh : s1.height / 2 ^ ssh vi.format p = s1.h p := by unfold Frm.h; rw [e1]
      rw [est, ew, eh, ← hkb]
      rw [est, eh] at hb
      have := plane2_ok ha v1 v2 (p := p) (q := p) (n1 := k.bytes) (n2 := k.bytes) (n := k.bytes) (st1 := s1.stride al p)
        (st2 := s1.stride al p) (st := s1.stride al p) (w := s2.w p) (h := s1.h p) (e1 ▸ hp) (by rw [f1, e1]; exact hp)
        (by rw [e1]; exact hkb) rfl (by rw [f1, e1]; exact hkb) (stride_eq f1 f2 p).symm (w_eq f1 f2 p) rfl rfl (h_eq f1 f3 p).symm
        (px := fun v1 v2 => .ok (mergeKernel F k (ws.getD p (0, 0)) v1 v2))
        (G := fun x y => mergeKernel F k (ws.getD p (0, 0)) (smp al s1 p x y) (smp al s2 p x y))
        (fun _ _ _ _ => rfl) (by rw [w_eq f1 f2, hkb, ← e1]; exact stride_ge ha s1 p) hb
      rw [w_eq f1 f2 p] at this ⊢
      exact this)
  refine ⟨g, e, v, g1, g2, g3, g4, ?_⟩
  intro p x y hp hx hy
  unfold mergeOut
  by_cases c0 : mergeProcess vi.format (ws.getD p (0, 0)) = 0
  · rw [if_pos c0, hk, g5 p hp (by rw [hsrc p hp]; dsimp only [src]; rw [if_pos c0]) x y hx hy]
  · rw [if_neg c0]
    by_cases c1 : mergeProcess vi.format (ws.getD p (0, 0)) = 1
    · rw [if_pos c1]
      exact same_smp (g6 p s1 p hp (by rw [hsrc p hp]; dsimp only [src]; rw [if_neg c0, if_pos c1])) hx hy
    · rw [if_neg c1]
      exact same_smp (g6 p s2 p hp (by rw [hsrc p hp]; dsimp only [src]; rw [if_neg c0, if_neg c1])) hx hy

/-! ## MakeDiff and MergeDiff -/

/-- What MakeDiff and MergeDiff compute in a plane that is processed. -/
def diffOut (F : Floats) (make : Bool) (f : VFmt) (v1 v2 : Nat) : Nat :=
  match kindOf f with
  | some k => diffKernel F make k f.bitsPerSample.toNat v1 v2 % 256 ^ bps f
  | none => 0

theorem diffFrame_ok {al : Nat} (ha : 0 < al) {F : Floats} {make : Bool} {vi : VInfo} {s1 s2 : Frm} (v1 : Valid al s1)
    (v2 : Valid al s2) (e1 : s1.fmt = vi.format) (e2 : (s1.width : Int) = vi.width) (e3 : (s1.height : Int) = vi.height)
    (f1 : s2.fmt = s1.fmt) (f2 : s2.width = s1.width) (f3 : s2.height = s1.height) (hw : Workable vi.format)
    (process : List Bool) (junk : Junk) :
    ∃ g, diffFrame F al make vi process s1 s2 junk = .ok g ∧ Valid al g ∧ g.fmt = vi.format ∧ g.width = s1.width ∧
      g.height = s1.height ∧ g.props = s1.props ∧ ∀ p x y : Nat, (p : Int) < vi.format.numPlanes → x < g.w p → y < g.h p →
        smp al g p x y = if process.getD p false then diffOut F make vi.format (smp al s1 p x y) (smp al s2 p x y)
          else smp al s1 p x y := by
  obtain ⟨k, hk, hkb, _⟩ := kind_ok (e1 ▸ v1.fmt) hw
  unfold diffFrame diffOut
  dsimp only
  rw [← e2, ← e3, hk]
  refine flags_ok v1 e1 (fun p => process.getD p false) _
    (fun p x y => diffKernel F make k vi.format.bitsPerSample.toNat (smp al s1 p x y) (smp al s2 p x y)) s1.props junk ?_
  intro p b hp _ hb
  have ew : (if make then s2.w p else s1.w p) = s1.w p := by rw [w_eq f1 f2]; split <;> rfl
  rw [ew, ← hkb]
  exact plane2_ok ha v1 v2 (p := p) (q := p) (e1 ▸ hp) (by rw [f1, e1]; exact hp)
    (by rw [e1]; exact hkb) rfl (by rw [f1, e1]; exact hkb) (stride_eq f1 f2 p).symm rfl (w_eq f1 f2 p).symm rfl (h_eq f1 f3 p).symm
    (fun _ _ _ _ => rfl) (by rw [hkb, ← e1]; exact stride_ge ha s1 p) hb

/-! ## PreMultiply -/

/-- What PreMultiply computes. -/
def premulOut (F : Floats) (f : VFmt) (off v1 v2 : Nat) : Nat :=
  match kindOf f with
  | some k => premulKernel F k f.bitsPerSample.toNat off v1 v2 % 256 ^ bps f
  | none => 0

theorem premulFrame_ok {al : Nat} (ha : 0 < al) {F : Floats} {vi : VInfo} {s1 s2 s23 : Frm} (v1 : Valid al s1)
    (v2 : Valid al s2) (v3 : Valid al s23) (e1 : s1.fmt = vi.format) (e2 : (s1.width : Int) = vi.width)
    (e3 : (s1.height : Int) = vi.height) (hw : Workable vi.format)
    (hs : ∀ p : Nat, (p : Int) < vi.format.numPlanes → bps (if p > 0 then s23 else s2).fmt = bps s1.fmt ∧
      (if p > 0 then s23 else s2).w 0 = s1.w p ∧ (if p > 0 then s23 else s2).h 0 = s1.h p) (junk : Junk) :
    ∃ g, premulFrame F al vi s1 s2 s23 junk = .ok g ∧ Valid al g ∧ g.fmt = vi.format ∧ g.width = s1.width ∧
      g.height = s1.height ∧ g.props = s1.props ∧ ∀ (p x y : Nat), (p : Int) < vi.format.numPlanes → x < g.w p → y < g.h p →
        smp al g p x y = premulOut F vi.format (planeOffset vi.format (getLimitedRangeOffset s1.props vi.format) p)
          (smp al s1 p x y) (smp al (if p > 0 then s23 else s2) 0 x y) := by
  obtain ⟨k, hk, hkb, _⟩ := kind_ok (e1 ▸ v1.fmt) hw
  unfold premulFrame premulOut
  rw [← e2, ← e3, hk]
  refine makeNew_ok (e1 ▸ v1.geo) s1.props junk (fun _ p b => _)
    (fun p x y => premulKernel F k vi.format.bitsPerSample.toNat
      (planeOffset vi.format (getLimitedRangeOffset s1.props vi.format) p) (smp al s1 p x y) (smp al (if p > 0 then s23 else s2) 0 x y)) ?_
  intro dst d1 d2 d3 p b hp hb
  obtain ⟨c1, c2, c3⟩ := hs p hp
  have vx : Valid al (if p > 0 then s23 else s2) := by split <;> assumption
  have st : dst.stride al p = s1.stride al p := stride_eq (by rw [d1, e1]) d2 p
  have dw : dst.w p = s1.w p := w_eq (by rw [d1, e1]) d2 p
  have dh : dst.h p = s1.h p := h_eq (by rw [d1, e1]) d3 p
  rw [st, dh] at hb
  rw [st, dw, dh, ← hkb]
  have np := (fmtOk vx.fmt vx.known).planes
  exact plane2_ok ha v1 vx (p := p) (q := 0) (e1 ▸ hp) (by omega)
    (by rw [e1]; exact hkb) rfl (by rw [c1, e1]; exact hkb) (by unfold Frm.stride; rw [c1, c2]) rfl c2.symm rfl c3.symm
    (fun _ _ _ _ => rfl) (by rw [hkb, ← e1]; exact stride_ge ha s1 p) hb

/-! ## MaskedMerge -/

/-- What MaskedMerge computes in a plane that is processed. -/
def maskOut (F : Floats) (pre : Bool) (f : VFmt) (off v1 v2 m : Nat) : Nat :=
  match kindOf f with
  | some k => maskKernel F k pre f.bitsPerSample.toNat off v1 v2 m % 256 ^ bps f
  | none => 0

theorem maskedFrame_ok {al : Nat} (ha : 0 < al) {F : Floats} {vi : VInfo} {first pre : Bool} {process : List Bool}
    {s1 s2 m m23 : Frm} (v1 : Valid al s1) (v2 : Valid al s2) (v3 : Valid al m) (v4 : Valid al m23)
    (e1 : s1.fmt = vi.format) (e2 : (s1.width : Int) = vi.width) (e3 : (s1.height : Int) = vi.height)
    (f1 : s2.fmt = s1.fmt) (f2 : s2.width = s1.width) (f3 : s2.height = s1.height) (hw : Workable vi.format)
    (hc : ((process.getD 1 false || process.getD 2 false) && decide (vi.format.subSamplingW > 0 ∨ vi.format.subSamplingH > 0) &&
      decide (resolveChromaLocation s1.props ≠ resolveChromaLocation s2.props)) = false)
    (hr : ∀ p : Nat, (p : Int) < vi.format.numPlanes → process.getD p false = true →
      ¬ (pre ∧ vi.format.sampleType = stInteger ∧ getLimitedRangeOffset s1.props vi.format ≠ getLimitedRangeOffset s2.props vi.format))
    (hs : ∀ p : Nat, (p : Int) < vi.format.numPlanes → process.getD p false = true →
      (((if first then 0 else p : Nat) : Int) < (if p > 0 then m23 else m).fmt.numPlanes) ∧
      bps (if p > 0 then m23 else m).fmt = bps s1.fmt ∧
      (if p > 0 then m23 else m).w (if first then 0 else p) = s1.w p ∧ (if p > 0 then m23 else m).h (if first then 0 else p) = s1.h p)
    (junk : Junk) :
    ∃ g, maskedFrame F al vi first pre process s1 s2 m m23 junk = .ok g ∧ Valid al g ∧ g.fmt = vi.format ∧ g.width = s1.width ∧
      g.height = s1.height ∧ g.props = s1.props ∧ ∀ (p x y : Nat), (p : Int) < vi.format.numPlanes → x < g.w p → y < g.h p →
        smp al g p x y = if process.getD p false then
            maskOut F pre vi.format (planeOffset vi.format (getLimitedRangeOffset s1.props vi.format) p) (smp al s1 p x y)
              (smp al s2 p x y) (smp al (if p > 0 then m23 else m) (if first then 0 else p) x y)
          else smp al s1 p x y := by
  obtain ⟨k, hk, hkb, _⟩ := kind_ok (e1 ▸ v1.fmt) hw
  unfold maskedFrame maskOut
  dsimp only
  rw [hc, ← e2, ← e3, hk]
  simp only [Bool.false_eq_true, if_false]
  refine flags_ok v1 e1 (fun p => process.getD p false) _
    (fun p x y => maskKernel F k pre vi.format.bitsPerSample.toNat
      (planeOffset vi.format (getLimitedRangeOffset s1.props vi.format) p) (smp al s1 p x y) (smp al s2 p x y)
      (smp al (if p > 0 then m23 else m) (if first then 0 else p) x y)) s1.props junk ?_
  intro p b hp hpr hb
  rw [if_neg (hr p hp hpr), ← hkb]
  obtain ⟨c0, c1, c2, c3⟩ := hs p hp hpr
  have vx : Valid al (if p > 0 then m23 else m) := by split <;> assumption
  have := plane3_ok ha v1 v2 vx (p := p) (q := if first then 0 else p) (n := k.bytes) (st := s1.stride al p)
    (w := s2.w p) (h := s1.h p) (e1 ▸ hp) (by rw [f1, e1]; exact hp) c0
    (by rw [e1]; exact hkb) rfl (by rw [f1, e1]; exact hkb) (stride_eq f1 f2 p).symm (by rw [c1, e1]; exact hkb)
    (by unfold Frm.stride; rw [c1, c2]) (w_eq f1 f2 p) rfl (by rw [c2, w_eq f1 f2]) rfl (h_eq f1 f3 p).symm c3.symm
    (px := fun v1 v2 v3 => .ok (maskKernel F k pre vi.format.bitsPerSample.toNat
      (planeOffset vi.format (getLimitedRangeOffset s1.props vi.format) p) v1 v2 v3))
    (fun _ _ _ _ => rfl) hb
  rw [w_eq f1 f2 p] at this ⊢
  exact this

/-! ## MakeFullDiff and MergeFullDiff -/

/-- The format with one bit more. -/
theorem full_valid {f : VFmt} (h : isValidVideoStruct f = true) (hw : Workable f) :
    isValidVideoStruct (fullVi ⟨f, 0, 0, 0, 0, 0⟩).format = true := by
  by_cases ht : f.sampleType = stInteger
  · unfold fullVi
    rw [if_pos ht]
    obtain ⟨⟨d1, d2, d3, d4, d5⟩, sb, np⟩ := good_of h hw.1
    have hb := hw.2.1 ht
    have h8 : 8 ≤ f.bitsPerSample := by
      rcases d2 with ⟨_, b, _⟩ | ⟨_, b⟩ <;> omega
    refine (C20_struct_check { f with
      bitsPerSample := f.bitsPerSample + 1
      bytesPerSample := if f.bitsPerSample + 1 > 16 then 4 else 2 } hw.1).1.2 ⟨⟨d1, Or.inl ⟨ht, ?_, ?_⟩, d3, d4, d5⟩, ?_, np⟩
    · show 8 ≤ f.bitsPerSample + 1; omega
    · show f.bitsPerSample + 1 ≤ 32; omega
    · show SmallestBytes (f.bitsPerSample + 1) (if f.bitsPerSample + 1 > 16 then 4 else 2)
      split
      · have : f.bitsPerSample = 16 := by omega
        rw [this]
        refine ⟨⟨2, rfl⟩, by decide, ?_⟩
        intro k hk
        match k, hk with
        | 0, hk => exact absurd hk (by decide)
        | 1, hk => exact absurd hk (by decide)
        | k + 2, _ =>
          have : (2 : Nat) ^ (k + 2) = 2 ^ k * 4 := by rw [Nat.pow_add]
          have := Nat.pow_pos (n := k) (show 0 < 2 by decide)
          omega
      · refine ⟨⟨1, rfl⟩, by omega, ?_⟩
        intro k hk
        match k, hk with
        | 0, hk => change f.bitsPerSample + 1 ≤ 8 at hk; omega
        | k + 1, _ =>
          have : (2 : Nat) ^ (k + 1) = 2 ^ k * 2 := by rw [Nat.pow_succ]
          have := Nat.pow_pos (n := k) (show 0 < 2 by decide)
          omega
  · unfold fullVi
    rw [if_neg ht]
    exact h

theorem fullVi_eq (vi : VInfo) : fullVi vi = { vi with format := (fullVi ⟨vi.format, 0, 0, 0, 0, 0⟩).format } := by
  unfold fullVi
  split <;> rfl

/-- Only the size of samples changes. -/
theorem full_fields (f : VFmt) : (fullVi ⟨f, 0, 0, 0, 0, 0⟩).format.colorFamily = f.colorFamily ∧
    (fullVi ⟨f, 0, 0, 0, 0, 0⟩).format.numPlanes = f.numPlanes ∧ (fullVi ⟨f, 0, 0, 0, 0, 0⟩).format.subSamplingW = f.subSamplingW ∧
    (fullVi ⟨f, 0, 0, 0, 0, 0⟩).format.subSamplingH = f.subSamplingH ∧
    (fullVi ⟨f, 0, 0, 0, 0, 0⟩).format.sampleType = f.sampleType := by
  unfold fullVi
  split <;> exact ⟨rfl, rfl, rfl, rfl, rfl⟩

/-- The kernels and the sizes of the samples they work on. -/
theorem full_kernels (F : Floats) {f : VFmt} (h : isValidVideoStruct f = true) (hw : Workable f) :
    ∃ px qx, makeFullKernel F f = some (⟨bps f, bps f, bps (fullVi ⟨f, 0, 0, 0, 0, 0⟩).format⟩, px) ∧
      mergeFullKernel F f = some (⟨bps f, bps (fullVi ⟨f, 0, 0, 0, 0, 0⟩).format, bps f⟩, qx) ∧
      ((f.sampleType = stInteger ∧ f.bitsPerSample = 8 ∧ bps f = 1 ∧ bps (fullVi ⟨f, 0, 0, 0, 0, 0⟩).format = 2 ∧
          (∀ a b, px a b = .ok (makeFullByte a b)) ∧ ∀ a b, qx a b = .ok (mergeFullByte a b)) ∨
       (f.sampleType = stInteger ∧ 9 ≤ f.bitsPerSample ∧ f.bitsPerSample < 16 ∧ bps f = 2 ∧
          bps (fullVi ⟨f, 0, 0, 0, 0, 0⟩).format = 2 ∧ (∀ a b, px a b = .ok (makeFullWord f.bitsPerSample.toNat a b)) ∧
          ∀ a b, qx a b = .ok (mergeFullWord f.bitsPerSample.toNat a b)) ∨
       (f.sampleType = stInteger ∧ f.bitsPerSample = 16 ∧ bps f = 2 ∧ bps (fullVi ⟨f, 0, 0, 0, 0, 0⟩).format = 4 ∧
          (∀ a b, px a b = .ok (makeFullDword f.bitsPerSample.toNat a b)) ∧ ∀ a b, qx a b = mergeFullDword f.bitsPerSample.toNat a b) ∨
       (f.sampleType = stFloat ∧ bps (fullVi ⟨f, 0, 0, 0, 0, 0⟩).format = bps f ∧
          ∃ k, kindOf f = some k ∧ (∀ a b, px a b = .ok (F.makeDiff k a b)) ∧ ∀ a b, qx a b = .ok (F.mergeDiff k a b))) := by
  obtain ⟨k, hk, hkb, hko⟩ := kind_ok h hw
  have n1 : (stFloat : Int) ≠ stInteger := by decide
  unfold makeFullKernel mergeFullKernel
  cases k with
  | byte =>
    obtain ⟨t, b, e⟩ := hko
    have eb : bps (fullVi ⟨f, 0, 0, 0, 0, 0⟩).format = 2 := by
      unfold fullVi; rw [if_pos t]; unfold bps; show Int.toNat (if f.bitsPerSample + 1 > 16 then 4 else 2) = 2
      rw [if_neg (by omega)]; rfl
    rw [if_pos ⟨t, b⟩, if_pos ⟨t, b⟩, e, eb]
    exact ⟨_, _, rfl, rfl, Or.inl ⟨t, b, rfl, rfl, fun _ _ => rfl, fun _ _ => rfl⟩⟩
  | word =>
    obtain ⟨t, b, b', e⟩ := hko
    have n8 : ¬ (f.sampleType = stInteger ∧ f.bitsPerSample = 8) := by omega
    simp only [if_neg n8]
    by_cases c : f.bitsPerSample = 16
    · have eb : bps (fullVi ⟨f, 0, 0, 0, 0, 0⟩).format = 4 := by
        unfold fullVi; rw [if_pos t]; unfold bps; show Int.toNat (if f.bitsPerSample + 1 > 16 then 4 else 2) = 4
        rw [if_pos (by omega)]; rfl
      have n16 : ¬ (f.sampleType = stInteger ∧ f.bitsPerSample < 16) := by omega
      simp only [if_neg n16, if_pos (And.intro t c)]
      rw [e, eb]
      exact ⟨_, _, rfl, rfl, Or.inr (Or.inr (Or.inl ⟨t, c, rfl, rfl, fun _ _ => rfl, fun _ _ => rfl⟩))⟩
    · have eb : bps (fullVi ⟨f, 0, 0, 0, 0, 0⟩).format = 2 := by
        unfold fullVi; rw [if_pos t]; unfold bps; show Int.toNat (if f.bitsPerSample + 1 > 16 then 4 else 2) = 2
        rw [if_neg (by omega)]; rfl
      have y16 : f.sampleType = stInteger ∧ f.bitsPerSample < 16 := ⟨t, by omega⟩
      simp only [if_pos y16]
      rw [e, eb]
      exact ⟨_, _, rfl, rfl, Or.inr (Or.inl ⟨t, b, by omega, rfl, rfl, fun _ _ => rfl, fun _ _ => rfl⟩)⟩
  | single =>
    obtain ⟨t, b, e⟩ := hko
    have nt : ∀ P : Prop, ¬ (f.sampleType = stInteger ∧ P) := fun P c => n1 (t ▸ c.1)
    have eb : bps (fullVi ⟨f, 0, 0, 0, 0, 0⟩).format = bps f := by
      unfold fullVi; rw [if_neg (by rw [t]; exact n1)]
    simp only [if_neg (nt _), if_pos (And.intro t b)]
    rw [eb, e]
    exact ⟨_, _, rfl, rfl, Or.inr (Or.inr (Or.inr ⟨t, rfl, .single, hk, fun _ _ => rfl, fun _ _ => rfl⟩))⟩
  | half =>
    obtain ⟨t, b, e⟩ := hko
    have nt : ∀ P : Prop, ¬ (f.sampleType = stInteger ∧ P) := fun P c => n1 (t ▸ c.1)
    have eb : bps (fullVi ⟨f, 0, 0, 0, 0, 0⟩).format = bps f := by
      unfold fullVi; rw [if_neg (by rw [t]; exact n1)]
    have nb : ¬ (f.sampleType = stFloat ∧ f.bitsPerSample = 32) := by omega
    simp only [if_neg (nt _), if_neg nb, if_pos (And.intro t b)]
    rw [eb, e]
    exact ⟨_, _, rfl, rfl, Or.inr (Or.inr (Or.inr ⟨t, rfl, .half, hk, fun _ _ => rfl, fun _ _ => rfl⟩))⟩

theorem ss_eq {f g : VFmt} (h1 : g.subSamplingW = f.subSamplingW) (h2 : g.subSamplingH = f.subSamplingH) (p : Nat) :
    ssw g p = ssw f p ∧ ssh g p = ssh f p := by
  unfold ssw ssh
  rw [h1, h2]
  exact ⟨rfl, rfl⟩

theorem makeFullFrame_ok {al : Nat} (ha : 0 < al) {F : Floats} {vi : VInfo} {s1 s2 : Frm} (v1 : Valid al s1)
    (v2 : Valid al s2) (e1 : s1.fmt = vi.format) (e2 : (s1.width : Int) = vi.width) (e3 : (s1.height : Int) = vi.height)
    (f1 : s2.fmt = s1.fmt) (f2 : s2.width = s1.width) (f3 : s2.height = s1.height)
    (hz : (s1.width : Int) * bps (fullVi vi).format ≤ INT_MAX)
    {px : Nat → Nat → Res Nat} {n1 n2 n : Nat} (hk : makeFullKernel F vi.format = some (⟨n1, n2, n⟩, px)) (hn1 : n1 = bps vi.format)
    (hn2 : n2 = bps vi.format) (hn : n = bps (fullVi vi).format) (hv : isValidVideoStruct (fullVi vi).format = true)
    {G : Nat → Nat → Nat → Nat}
    (hG : ∀ p x y, x < s1.w p → y < s1.h p → px (smp al s1 p x y) (smp al s2 p x y) = .ok (G p x y)) (junk : Junk) :
    ∃ g, makeFullFrame F al vi s1 s2 junk = .ok g ∧ Valid al g ∧ g.fmt = (fullVi vi).format ∧ g.width = s1.width ∧
      g.height = s1.height ∧ g.props = s1.props ∧ ∀ (p x y : Nat), (p : Int) < (fullVi vi).format.numPlanes → x < g.w p → y < g.h p →
        smp al g p x y = G p x y % 256 ^ bps (fullVi vi).format := by
  have hq := full_fields vi.format
  have ef : (fullVi vi).format = (fullVi ⟨vi.format, 0, 0, 0, 0, 0⟩).format := by rw [fullVi_eq]
  obtain ⟨q1, q2, q3, q4, q5⟩ := hq
  rw [← ef] at q1 q2 q3 q4 q5
  have ewi : (fullVi vi).width = s1.width := by rw [fullVi_eq]; exact e2.symm
  have ehe : (fullVi vi).height = s1.height := by rw [fullVi_eq]; exact e3.symm
  unfold makeFullFrame
  dsimp only
  rw [ewi, ehe, hk]
  refine makeNew_ok (al := al) ⟨hv, by rw [q1, ← e1]; exact v1.known, v1.width, v1.height, by rw [q3, ← e1]; exact v1.modW,
    by rw [q4, ← e1]; exact v1.modH, hz, v1.rows⟩ s1.props junk
    (fun dst p b => plane2 s1 s2 p p n1 (s1.stride al p) n2 (s1.stride al p) n (dst.stride al p) (s2.w p) (s1.h p) px b) G ?_
  intro dst d1 d2 d3 p b hp hb
  have dw : dst.w p = s1.w p := by unfold Frm.w; rw [d1, d2, e1, (ss_eq q3 q4 p).1]
  have dh : dst.h p = s1.h p := by unfold Frm.h; rw [d1, d3, e1, (ss_eq q3 q4 p).2]
  rw [dw, dh, ← hn]
  rw [dh] at hb
  rw [q2] at hp
  have := plane2_ok ha v1 v2 (p := p) (q := p) (n1 := n1) (n2 := n2) (n := n) (st1 := s1.stride al p) (st2 := s1.stride al p)
    (st := dst.stride al p) (w := s2.w p) (h := s1.h p) (e1 ▸ hp) (by rw [f1, e1]; exact hp)
    (by rw [e1]; exact hn1) rfl (by rw [f1, e1]; exact hn2) (stride_eq f1 f2 p).symm (w_eq f1 f2 p) rfl rfl (h_eq f1 f3 p).symm
    (px := px) (G := G p) (fun x y hx hy => hG p x y (w_eq f1 f2 p ▸ hx) hy)
    (by rw [w_eq f1 f2, ← dw, hn, ← d1]; exact stride_ge ha dst p) hb
  rw [w_eq f1 f2 p] at this ⊢
  exact this

theorem mergeFullFrame_ok {al : Nat} (ha : 0 < al) {F : Floats} {vi : VInfo} {s1 s2 : Frm} (v1 : Valid al s1)
    (v2 : Valid al s2) (e1 : s1.fmt = vi.format) (e2 : (s1.width : Int) = vi.width) (e3 : (s1.height : Int) = vi.height)
    (f1 : s2.fmt = (fullVi vi).format) (f2 : s2.width = s1.width) (f3 : s2.height = s1.height)
    {px : Nat → Nat → Res Nat} {n1 n2 n : Nat} (hk : mergeFullKernel F vi.format = some (⟨n1, n2, n⟩, px)) (hn1 : n1 = bps vi.format)
    (hn2 : n2 = bps (fullVi vi).format) (hn : n = bps vi.format) {G : Nat → Nat → Nat → Nat}
    (hG : ∀ (p x y : Nat), (p : Int) < vi.format.numPlanes → x < s1.w p → y < s1.h p →
      px (smp al s1 p x y) (smp al s2 p x y) = .ok (G p x y)) (junk : Junk) :
    ∃ g, mergeFullFrame F al vi s1 s2 junk = .ok g ∧ Valid al g ∧ g.fmt = vi.format ∧ g.width = s1.width ∧
      g.height = s1.height ∧ g.props = s1.props ∧ ∀ (p x y : Nat), (p : Int) < vi.format.numPlanes → x < g.w p → y < g.h p →
        smp al g p x y = G p x y % 256 ^ bps vi.format := by
  have hq := full_fields vi.format
  have ef : (fullVi vi).format = (fullVi ⟨vi.format, 0, 0, 0, 0, 0⟩).format := by rw [fullVi_eq]
  obtain ⟨q1, q2, q3, q4, q5⟩ := hq
  rw [← ef] at q1 q2 q3 q4 q5
  unfold mergeFullFrame
  rw [← e2, ← e3, hk]
  refine makeNew_ok (al := al) (e1 ▸ v1.geo) s1.props junk
    (fun dst p b => plane2 s1 s2 p p n1 (s1.stride al p) n2 (s2.stride al p) n (dst.stride al p) (s1.w p) (s1.h p) px b) G ?_
  intro dst d1 d2 d3 p b hp hb
  have dw : dst.w p = s1.w p := w_eq (by rw [d1, e1]) d2 p
  have dh : dst.h p = s1.h p := h_eq (by rw [d1, e1]) d3 p
  have sw : s2.w p = s1.w p := by unfold Frm.w; rw [f1, f2, e1, (ss_eq q3 q4 p).1]
  have sh : s2.h p = s1.h p := by unfold Frm.h; rw [f1, f3, e1, (ss_eq q3 q4 p).2]
  rw [dw, dh, ← hn]
  rw [dh] at hb
  exact plane2_ok ha v1 v2 (p := p) (q := p) (e1 ▸ hp) (by rw [f1, q2]; exact hp)
    (by rw [e1]; exact hn1) rfl (by rw [f1]; exact hn2) rfl rfl sw.symm rfl sh.symm
    (fun x y hx hy => hG p x y hp hx hy) (by rw [← dw, hn, ← d1]; exact stride_ge ha dst p) hb

end VS.Merge
