import Verif.Lut.Lemmas
import Verif.Point.Example

/-! # Lemmas about the frames of Lut and Lut2 -/

namespace VS.Lut
open VS VS.Format VS.Map VS.Map.Spec VS.Pix VS.Pix.Spec VS.Point VS.Point.Spec VS.Lut.Spec

/-- Small integer samples have one or two bytes. -/
theorem small_bytes {f : VFmt} (h : isValidVideoStruct f = true) (hk : f.colorFamily ≠ cfUndefined) (ht : f.sampleType = stInteger)
    (hb : f.bitsPerSample ≤ 16) : 8 ≤ f.bitsPerSample ∧ ((bps f = 1 ∧ f.bitsPerSample = 8) ∨ (bps f = 2 ∧ 8 < f.bitsPerSample)) := by
  obtain ⟨⟨_, d, _⟩, s, _⟩ := good_of h hk
  have n1 : (stFloat : Int) ≠ stInteger := by decide
  have h8 : 8 ≤ f.bitsPerSample := by
    rcases d with d | d
    · exact d.2.1
    · exact absurd (d.1.symm.trans ht) n1
  refine ⟨h8, ?_⟩
  by_cases e : f.bitsPerSample = 8
  · left
    refine ⟨?_, e⟩
    unfold bps
    rw [bytes_1 s e]; rfl
  · right
    refine ⟨?_, by omega⟩
    unfold bps
    rw [bytes_2 s (by omega) hb]; rfl

theorem out_bytes {a : Args} {f fo : VFmt} (h : OutOk a f fo) : bps fo = 1 ∨ bps fo = 2 ∨ bps fo = 4 := by
  unfold bps
  by_cases c : FloatOut a
  · rw [(h.float c).2.2.1]; exact Or.inr (Or.inr rfl)
  · rw [(h.int c).2.2.2.2]
    split
    · exact Or.inl rfl
    · exact Or.inr (Or.inl rfl)

theorem round_fit {al w s u : Nat} (hal : AlignOk al) (hs : s = 1 ∨ s = 2) (hu : u = 1 ∨ u = 2 ∨ u = 4) :
    roundUp w (unit u) * u ≤ Frame.strideOf al w u ∧ roundUp w (unit u) * s ≤ Frame.strideOf al w s ∧ w ≤ roundUp w (unit u) := by
  unfold roundUp unit Frame.strideOf
  rcases hal with rfl | rfl <;> rcases hs with rfl | rfl <;> rcases hu with rfl | rfl | rfl <;> simp <;> omega

theorem plane_get {al : Nat} {f : Frm} (v : Valid al f) {p : Nat} (hp : (p : Int) < f.fmt.numPlanes) : ∃ b, f.planes[p]? = some b := by
  have := v.count
  exact ⟨_, List.getElem?_eq_getElem (by omega)⟩

/-- One frame of Lut. -/
theorem lutFrame_ok {al : Nat} (hal : AlignOk al) {a : Args} {s1 : Frm} (v1 : Valid al s1) {fo : VFmt} (ho : OutOk a s1.fmt fo)
    (geo : Geo fo s1.width s1.height) (ht : s1.fmt.sampleType = stInteger) (hb : s1.fmt.bitsPerSample ≤ 16) (t : Nat → Nat)
    (process : List Bool) (hbp : ∀ p : Nat, (p : Int) < fo.numPlanes → process.getD p false = false → bps s1.fmt = bps fo)
    (junk : Junk) :
    ∃ g, lutFrame al (bps s1.fmt) (bps fo) fo t process s1 junk = .ok g ∧ Valid al g ∧ g.fmt = fo ∧ g.width = s1.width ∧
      g.height = s1.height ∧ g.props = s1.props ∧
      ∀ p x y : Nat, (p : Int) < fo.numPlanes → x < g.w p → y < g.h p →
        smp al g p x y = if process.getD p false then t (smp al s1 p x y) % 256 ^ bps fo else smp al s1 p x y := by
  refine flagsTo_ok v1 geo ho.planes ho.subW ho.subH (fun p => process.getD p false) hbp _ (fun p x y => t (smp al s1 p x y))
    s1.props junk ?_
  intro p b hp _ hsz
  obtain ⟨b1, e1⟩ := plane_get v1 (p := p) (by rw [← ho.planes]; exact hp)
  have hs : bps s1.fmt = 1 ∨ bps s1.fmt = 2 := (small_bytes v1.fmt v1.known ht hb).2.imp (·.1) (·.1)
  obtain ⟨f1, f2, f3⟩ := round_fit (w := s1.w p) hal hs (out_bytes ho)
  have hpl : s1.plane p = .ok b1 := by unfold Frm.plane; rw [e1]
  obtain ⟨b', e, h1, h2⟩ := fill_ok (g := fun x y => do
      let v ← rd b1 (bps s1.fmt) (y * s1.stride al p + x * bps s1.fmt : Nat)
      look (256 ^ bps s1.fmt) t v)
    (G := fun x y => t (smp al s1 p x y)) (n := bps fo) (stride := Frame.strideOf al (s1.w p) (bps fo))
    (w := roundUp (s1.w p) (unit (bps fo))) (h := s1.h p) f1 (by
      intro x y hx hy
      have : rd b1 (bps s1.fmt) (y * s1.stride al p + x * bps s1.fmt : Nat) = .ok (smp al s1 p x y) := by
        rw [smp_eq e1, rd_ok]
        rw [v1.size p b1 e1]
        exact cell_fit f2 hy hx
      rw [this, Res.bind_ok]
      unfold look
      rw [if_pos (smp_lt _ _ _ _)]) hsz
  refine ⟨b', ?_, h1, fun x y k hx hy hk => h2 x y k (by omega) hy hk⟩
  show (s1.plane p >>= fun b1 => fill (fun x y => do
      let v ← rd b1 (bps s1.fmt) (y * s1.stride al p + x * bps s1.fmt : Nat)
      look (256 ^ bps s1.fmt) t v) (bps fo) (Frame.strideOf al (s1.w p) (bps fo)) (roundUp (s1.w p) (unit (bps fo))) (s1.h p) b) = _
  rw [hpl, Res.bind_ok]
  exact e

theorem index2_lt (bx byy vx vy : Nat) : index2 bx byy vx vy < 2 ^ bx * 2 ^ byy := by
  unfold index2
  have h1 := Nat.pow_pos (n := bx) (show 0 < 2 by decide)
  have h2 := Nat.pow_pos (n := byy) (show 0 < 2 by decide)
  generalize 2 ^ bx = X at *
  generalize 2 ^ byy = Y at *
  have : min vy (Y - 1) * X + X ≤ Y * X := by
    rw [← Nat.succ_mul]
    exact Nat.mul_le_mul_right X (by omega)
  rw [Nat.mul_comm X Y]
  omega

/-- One frame of Lut2. -/
theorem lut2Frame_ok {al : Nat} (hal : AlignOk al) {a : Args} {s1 s2 : Frm} (v1 : Valid al s1) (v2 : Valid al s2)
    {fo : VFmt} (ho : OutOk a s1.fmt fo) (geo : Geo fo s1.width s1.height) (bx byy : Nat) (ew : ∀ p, s2.w p = s1.w p)
    (eh : ∀ p, s2.h p = s1.h p) (t : Nat → Nat) (process : List Bool)
    (h3 : ∀ p : Nat, (p : Int) < fo.numPlanes → process.getD p false = true → (p : Int) < s2.fmt.numPlanes)
    (hbp : ∀ p : Nat, (p : Int) < fo.numPlanes → process.getD p false = false → bps s1.fmt = bps fo) (junk : Junk) :
    ∃ g, lut2Frame al (bps s1.fmt) (bps s2.fmt) (bps fo) bx byy fo t process s1 s2 junk = .ok g ∧ Valid al g ∧ g.fmt = fo ∧
      g.width = s1.width ∧ g.height = s1.height ∧ g.props = s1.props ∧
      ∀ p x y : Nat, (p : Int) < fo.numPlanes → x < g.w p → y < g.h p →
        smp al g p x y = if process.getD p false then
          t (index2 bx byy (smp al s1 p x y) (smp al s2 p x y)) % 256 ^ bps fo else smp al s1 p x y := by
  refine flagsTo_ok v1 geo ho.planes ho.subW ho.subH (fun p => process.getD p false) hbp _
    (fun p x y => t (index2 bx byy (smp al s1 p x y) (smp al s2 p x y))) s1.props junk ?_
  intro p b hp hproc hsz
  obtain ⟨b1, e1⟩ := plane_get v1 (p := p) (by rw [← ho.planes]; exact hp)
  obtain ⟨b2, e2⟩ := plane_get v2 (p := p) (h3 p hp hproc)
  have hpl : s1.plane p = .ok b1 := by unfold Frm.plane; rw [e1]
  have hpl2 : s2.plane p = .ok b2 := by unfold Frm.plane; rw [e2]
  have hal0 := align_pos hal
  have f1 : s1.w p * bps fo ≤ Frame.strideOf al (s1.w p) (bps fo) := by
    unfold Frame.strideOf
    have h1 := Nat.div_add_mod (s1.w p * bps fo + (al - 1)) al
    have h2 := Nat.mod_lt (s1.w p * bps fo + (al - 1)) hal0
    rw [Nat.mul_comm] at h1
    omega
  obtain ⟨b', e, h1, h2⟩ := fill_ok (g := fun x y => do
      let vx ← rd b1 (bps s1.fmt) (y * s1.stride al p + x * bps s1.fmt : Nat)
      let vy ← rd b2 (bps s2.fmt) (y * s2.stride al p + x * bps s2.fmt : Nat)
      look (2 ^ bx * 2 ^ byy) t (index2 bx byy vx vy))
    (G := fun x y => t (index2 bx byy (smp al s1 p x y) (smp al s2 p x y))) (n := bps fo)
    (stride := Frame.strideOf al (s1.w p) (bps fo)) (w := s1.w p) (h := s1.h p) f1 (by
      intro x y hx hy
      rw [rd_smp hal0 v1 e1 hx hy, Res.bind_ok, rd_smp hal0 v2 e2 (by rw [ew]; exact hx) (by rw [eh]; exact hy), Res.bind_ok]
      unfold look
      rw [if_pos (index2_lt _ _ _ _)]) hsz
  refine ⟨b', ?_, h1, h2⟩
  show (s1.plane p >>= fun b1 => s2.plane p >>= fun b2 => fill (fun x y => do
      let vx ← rd b1 (bps s1.fmt) (y * s1.stride al p + x * bps s1.fmt : Nat)
      let vy ← rd b2 (bps s2.fmt) (y * s2.stride al p + x * bps s2.fmt : Nat)
      look (2 ^ bx * 2 ^ byy) t (index2 bx byy vx vy)) (bps fo) (Frame.strideOf al (s1.w p) (bps fo)) (s1.w p) (s1.h p) b) = _
  rw [hpl, Res.bind_ok, hpl2, Res.bind_ok]
  exact e

/-- The geometry of the result. -/
theorem out_geo {al : Nat} {a : Args} {s1 : Frm} (v1 : Valid al s1) {fo : VFmt} (ho : OutOk a s1.fmt fo) (hg : GoodVideo fo)
    (hr : (s1.width : Int) * bps fo ≤ INT_MAX) : Geo fo s1.width s1.height := by
  have hk : fo.colorFamily ≠ cfUndefined := by rw [ho.color]; exact v1.known
  exact ⟨(C20_struct_check fo hk).1.2 hg, hk, v1.width, v1.height, by rw [ho.subW]; exact v1.modW, by rw [ho.subH]; exact v1.modH,
    hr, v1.rows⟩

/-- The values of the table fit into the samples. -/
theorem values_lt {F : Conv} {a : Args} {f fo : VFmt} (ho : OutOk a f fo) {nx n : Nat} {T : Nat → Nat} (h : Values F a fo nx n T)
    {i : Nat} (hi : i < n) : T i < 256 ^ bps fo := by
  have int : ¬ FloatOut a → T i < 2 ^ fo.bitsPerSample.toNat → T i < 256 ^ bps fo := by
    intro c h
    obtain ⟨_, _, g1, g2, g3⟩ := ho.int c
    unfold bps
    refine Nat.lt_of_lt_of_le h ?_
    rw [g3]
    split
    · next e => rw [e]; decide
    · show 2 ^ fo.bitsPerSample.toNat ≤ 2 ^ 16
      exact Nat.pow_le_pow_right (by decide) (by omega)
  have float : FloatOut a → T i < 2 ^ 32 → T i < 256 ^ bps fo := by
    intro c h
    unfold bps
    rw [(ho.float c).2.2.1]
    exact h
  rcases h with ⟨l, _, _, _, c, _, hv⟩ | ⟨l, _, _, _, c, _, hv⟩ | ⟨g, _, _, _, c, hv⟩ | ⟨g, _, _, _, c, hv⟩
  · exact int c (hv i hi).2
  · obtain ⟨b, _, e⟩ := hv i hi
    exact float c (by rw [e]; exact F.single_lt b)
  · exact int c (hv i hi).2
  · obtain ⟨b, _, e⟩ := hv i hi
    exact float c (by rw [e]; exact F.single_lt b)

end VS.Lut
