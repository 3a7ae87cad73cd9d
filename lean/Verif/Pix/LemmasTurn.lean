import Verif.Pix.LemmasFlip

/-! # Transpose, Turn90 and Turn270 on one frame -/

namespace VS.Pix
open VS VS.Format VS.Map VS.Map.Spec VS.Pix.Spec

/-! ## Offsets -/

theorem addOffset_nat {k sz : Nat} (hz : sz = 1 ∨ sz = 2 ∨ sz = 4) (hd : sz ∣ k) (hk : k < 2 ^ 63) : addOffset k sz = k := by
  unfold addOffset signed64
  have e : ((k : Int) % 2 ^ 64).toNat = k := by omega
  rw [e, Nat.div_mul_cancel hd, Nat.mod_eq_of_lt (by omega), if_pos hk]

theorem addOffset_neg {k sz : Nat} (hz : sz = 1 ∨ sz = 2 ∨ sz = 4) (hd : sz ∣ k) (hk : k < 2 ^ 63) :
    addOffset (-(k : Int)) sz = -(k : Int) := by
  rcases Nat.eq_zero_or_pos k with rfl | h0
  · exact addOffset_nat (k := 0) hz hd (by omega)
  · unfold addOffset signed64
    have e : (-(k : Int) % 2 ^ 64).toNat = 2 ^ 64 - k := by omega
    have hd' : sz ∣ 2 ^ 64 - k := Nat.dvd_sub (by rcases hz with rfl | rfl | rfl <;> decide) hd
    rw [e, Nat.div_mul_cancel hd', Nat.mod_eq_of_lt (by omega), if_neg (by omega)]
    omega

/-! ## The loops -/

section
variable {N sz : Nat} {s : Buf} {D C : Nat → Nat → Nat} {w h : Nat} {so ss dof ds : Int}

/-- The operation does the samples in `R`. -/
abbrev AddsT (N sz : Nat) (s : Buf) (D C : Nat → Nat → Nat) (w h : Nat) (op : Buf → Res Buf) (R : Nat → Nat → Prop) : Prop :=
  Adds (fun S => Cells N sz s D C (fun y x => (y < h ∧ x < w) ∧ S y x)) op R

theorem loopT {f : Nat → Buf → Res Buf} {step i m : Nat} {R : Nat → Nat → Nat → Prop}
    (hh : ∀ k, k < m → AddsT N sz s D C w h (f (i + k * step)) (R k)) :
    AddsT N sz s D C w h (forFrom f step i m) (fun y x => ∃ k, k < m ∧ R k y x) :=
  Adds.loop (fun y x => y < h ∧ x < w) hh

theorem blockT (hs : ∀ i j, i < h → j < w → AddsT N sz s D C w h (transposeSample sz s so ss dof ds i j)
      (fun y x => y = i ∧ x = j)) {bw bh i j : Nat} (hi : i + bh ≤ h) (hj : j + bw ≤ w) :
    AddsT N sz s D C w h (transposeBlock sz bw bh s so ss dof ds i j)
      (fun y x => ∃ y0, y0 < bh ∧ ∃ x0, x0 < bw ∧ y = i + y0 ∧ x = j + x0) := by
  unfold transposeBlock forN
  refine loopT (fun y0 hy0 => ?_)
  simp only [Nat.zero_add, Nat.mul_one]
  refine loopT (fun x0 hx0 => ?_)
  simp only [Nat.zero_add, Nat.mul_one]
  exact hs _ _ (by omega) (by omega)

theorem step_le {k n c : Nat} (hk : k < n / c) : k * c + c ≤ n := by
  have : (k + 1) * c ≤ n / c * c := Nat.mul_le_mul_right _ hk
  have := Nat.div_mul_le_self n c
  rw [Nat.add_mul, Nat.one_mul] at *
  omega

theorem sub_mod (n c : Nat) : n - n % c = c * (n / c) := by
  have := Nat.div_add_mod n c
  omega

/-- Every sample is copied. -/
theorem planeT (hs : ∀ i j, i < h → j < w → AddsT N sz s D C w h (transposeSample sz s so ss dof ds i j)
      (fun y x => y = i ∧ x = j)) {bw bh cl : Nat} (hbw : 0 < bw) (hbh : 0 < bh) (hcl : 0 < cl) (hd : bh ∣ cl)
    (b : Buf) (hb : b.size = N) :
    ∃ b', transposePlaneLoop sz bw bh cl s so ss dof ds w h b = .ok b' ∧ b'.size = N ∧
      ∀ i j, i < h → j < w → ∀ k, k < sz → b'.byte (D i j + k) = s.byte (C i j + k) := by
  have hwf := sub_mod w bw
  have hhf := sub_mod h cl
  have hhf2 := sub_mod h bh
  have lw : w - w % bw ≤ w := Nat.sub_le _ _
  have lh : h - h % cl ≤ h := Nat.sub_le _ _
  have lh2 : h - h % bh ≤ h := Nat.sub_le _ _
  have key : AddsT N sz s D C w h (transposePlaneLoop sz bw bh cl s so ss dof ds w h)
      (fun y x => (∃ k, k < (h - h % cl) / cl ∧
        ((∃ k1, k1 < (w - w % bw) / bw ∧ ∃ k2, k2 < cl / bh ∧
          ∃ y0, y0 < bh ∧ ∃ x0, x0 < bw ∧ y = k * cl + k2 * bh + y0 ∧ x = k1 * bw + x0) ∨
        (∃ k1, k1 < w - (w - w % bw) ∧ ∃ k2, k2 < cl ∧ y = k * cl + k2 ∧ x = w - w % bw + k1))) ∨
       ((∃ k, k < (h - h % bh - (h - h % cl)) / bh ∧
        ((∃ k1, k1 < (w - w % bw) / bw ∧
          ∃ y0, y0 < bh ∧ ∃ x0, x0 < bw ∧ y = h - h % cl + k * bh + y0 ∧ x = k1 * bw + x0) ∨
        (∃ k1, k1 < w - (w - w % bw) ∧ ∃ k2, k2 < bh ∧ y = h - h % cl + k * bh + k2 ∧ x = w - w % bw + k1))) ∨
       (∃ k, k < h - (h - h % bh) ∧ ∃ k1, k1 < w ∧ y = h - h % bh + k ∧ x = k1))) := by
    unfold transposePlaneLoop
    refine Adds.bind (fun y x => y < h ∧ x < w) ?_ (Adds.bind (fun y x => y < h ∧ x < w) ?_ ?_)
    · refine loopT (fun k hk => ?_)
      have q1 := step_le hk
      refine Adds.bind (fun y x => y < h ∧ x < w) ?_ ?_
      · refine loopT (fun k1 hk1 => ?_)
        have q2 := step_le hk1
        refine loopT (fun k2 hk2 => ?_)
        have q3 := step_le hk2
        simp only [Nat.zero_add]
        exact blockT hs (by omega) (by omega)
      · refine loopT (fun k1 hk1 => ?_)
        refine loopT (fun k2 hk2 => ?_)
        simp only [Nat.zero_add, Nat.mul_one]
        exact hs _ _ (by omega) (by omega)
    · refine loopT (fun k hk => ?_)
      have q1 := step_le hk
      refine Adds.bind (fun y x => y < h ∧ x < w) ?_ ?_
      · refine loopT (fun k1 hk1 => ?_)
        have q2 := step_le hk1
        simp only [Nat.zero_add]
        exact blockT hs (by omega) (by omega)
      · refine loopT (fun k1 hk1 => ?_)
        refine loopT (fun k2 hk2 => ?_)
        simp only [Nat.mul_one]
        exact hs _ _ (by omega) (by omega)
    · refine loopT (fun k hk => ?_)
      refine loopT (fun k1 hk1 => ?_)
      simp only [Nat.zero_add, Nat.mul_one]
      exact hs _ _ (by omega) (by omega)
  obtain ⟨b', e, e1, e2⟩ := key.run (by
    rintro i j ⟨hi, hj⟩
    have jm := Nat.div_add_mod j bw
    have jl := Nat.mod_lt j hbw
    rcases Nat.lt_or_ge i (h - h % cl) with h1 | h1
    · left
      have im := Nat.div_add_mod i cl
      have il := Nat.mod_lt i hcl
      refine ⟨i / cl, ?_, ?_⟩
      · rw [hhf, Nat.mul_div_cancel_left _ hcl, Nat.div_lt_iff_lt_mul hcl, Nat.mul_comm, ← hhf]; exact h1
      · rcases Nat.lt_or_ge j (w - w % bw) with h2 | h2
        · left
          refine ⟨j / bw, ?_, i % cl / bh, ?_, i % cl % bh, Nat.mod_lt _ hbh, j % bw, jl, ?_, ?_⟩
          · rw [hwf, Nat.mul_div_cancel_left _ hbw, Nat.div_lt_iff_lt_mul hbw, Nat.mul_comm, ← hwf]; exact h2
          · rw [Nat.div_lt_iff_lt_mul hbh, Nat.div_mul_cancel hd]; exact il
          · have := Nat.div_add_mod (i % cl) bh
            rw [Nat.mul_comm (i / cl), Nat.mul_comm (i % cl / bh)]
            omega
          · rw [Nat.mul_comm]; omega
        · right
          exact ⟨j - (w - w % bw), by omega, i % cl, il, by rw [Nat.mul_comm]; omega, by omega⟩
    · right
      rcases Nat.lt_or_ge i (h - h % bh) with h3 | h3
      · left
        have im := Nat.div_add_mod (i - (h - h % cl)) bh
        have il := Nat.mod_lt (i - (h - h % cl)) hbh
        refine ⟨(i - (h - h % cl)) / bh, ?_, ?_⟩
        · obtain ⟨q, hq⟩ := hd
          have e : h - h % bh - (h - h % cl) = bh * (h / bh - q * (h / cl)) := by
            rw [hhf, hhf2]
            generalize h / cl = m
            rw [hq, Nat.mul_sub, Nat.mul_assoc]
          have e2 : i - (h - h % cl) < h - h % bh - (h - h % cl) := by omega
          rw [e] at e2
          rw [e, Nat.mul_div_cancel_left _ hbh, Nat.div_lt_iff_lt_mul hbh, Nat.mul_comm]
          exact e2
        · rcases Nat.lt_or_ge j (w - w % bw) with h2 | h2
          · left
            refine ⟨j / bw, ?_, (i - (h - h % cl)) % bh, il, j % bw, jl, ?_, ?_⟩
            · rw [hwf, Nat.mul_div_cancel_left _ hbw, Nat.div_lt_iff_lt_mul hbw, Nat.mul_comm, ← hwf]; exact h2
            · rw [Nat.mul_comm]; omega
            · rw [Nat.mul_comm]; omega
          · right
            exact ⟨j - (w - w % bw), by omega, (i - (h - h % cl)) % bh, il, by rw [Nat.mul_comm]; omega, by omega⟩
      · right
        exact ⟨i - (h - h % bh), by omega, j, hj, by omega, rfl⟩) b hb
  exact ⟨b', e, e1, fun i j hi hj => e2 i j ⟨hi, hj⟩⟩
end

/-- Block sizes that fit into cache lines. -/
def BlkOk (blk : Nat → Nat × Nat) : Prop :=
  ∀ sz, sz = 1 ∨ sz = 2 ∨ sz = 4 → 0 < (blk sz).1 ∧ 0 < (blk sz).2 ∧ (blk sz).2 ∣ 64 / sz

theorem blkC_ok : BlkOk blkC := by
  intro sz h; rcases h with rfl | rfl | rfl <;> decide

theorem blkSse2_ok : BlkOk blkSse2 := by
  intro sz h; rcases h with rfl | rfl | rfl <;> decide

/-- What the modes do to a picture. -/
def turned (m : TMode) (i : Img) : Img :=
  match m with
  | .transpose => Spec.transpose i
  | .turn90 => turn90 i
  | .turn270 => turn270 i

theorem stride_small {al : Nat} (h64 : al ≤ 64) (ha : 0 < al) {f : Frm} {W : Nat} (hr : (W : Int) * bps f.fmt ≤ INT_MAX) {p : Nat}
    (hw : f.w p ≤ W) : f.stride al p < 2 ^ 32 := by
  unfold Frm.stride Frame.strideOf
  have h1 := Nat.div_mul_le_self (f.w p * bps f.fmt + (al - 1)) al
  have h2 : f.w p * bps f.fmt ≤ W * bps f.fmt := Nat.mul_le_mul_right _ hw
  unfold INT_MAX at hr
  have : W * bps f.fmt ≤ 2147483647 := by rw [← Int.natCast_mul] at hr; omega
  omega

theorem mul_small {a b : Nat} (ha : a < 2 ^ 31) (hb : b < 2 ^ 32) : a * b < 2 ^ 63 := by
  have : a * b ≤ (2 ^ 31 - 1) * (2 ^ 32 - 1) := Nat.mul_le_mul (by omega) (by omega)
  omega

/-- `transposeGetFrame`. -/
theorem transposeFrame_ok {al : Nat} (ha : 0 < al) (h4 : 4 ∣ al) (h64 : al ≤ 64) {blk : Nat → Nat × Nat} (hblk : BlkOk blk)
    (vi : VInfo) (mode : TMode) {src : Frm} (hv : Valid al src) (geo : Geo vi.format src.height src.width)
    (hb : bps vi.format = bps src.fmt) (hn : vi.format.numPlanes = src.fmt.numPlanes)
    (hsw : vi.format.subSamplingW = src.fmt.subSamplingH) (hsh : vi.format.subSamplingH = src.fmt.subSamplingW)
    (hvw : vi.width = src.height) (hvh : vi.height = src.width) (junk : Junk) :
    ∃ g, transposeFrame al blk vi mode src junk = .ok g ∧ Valid al g ∧ g.fmt = vi.format ∧ g.width = src.height ∧
      g.height = src.width ∧ g.props = src.props ∧
      ∀ p : Nat, (p : Int) < vi.format.numPlanes → (img al g p).Same (turned mode (img al src p)) := by
  unfold transposeFrame
  rw [hvw, hvh]
  have esw : ∀ p, ssw vi.format p = ssh src.fmt p := fun p => by unfold ssw ssh; rw [hsw]
  have esh : ∀ p, ssh vi.format p = ssw src.fmt p := fun p => by unfold ssw ssh; rw [hsh]
  refine make_ok (al := al) geo src.props junk (fun dst => transposePlane al blk mode src dst)
    (fun p => turned mode (img al src p)) (fun p _ => by rw [esw]; cases mode <;> rfl)
    (fun p _ => by rw [esh]; cases mode <;> rfl) ?_
  intro dst d1 d2 d3 p b hp hbz
  obtain ⟨s, hs, es, hsz⟩ := hv.plane_ok (show (p : Int) < src.fmt.numPlanes by omega)
  have kw : dst.w p = src.h p := by unfold Frm.w Frm.h; rw [d1, d2, esw]
  have kh : dst.h p = src.w p := by unfold Frm.h Frm.w; rw [d1, d3, esh]
  have hz := hv.ok.bytes
  have st1 := stride_ge ha src p
  have st2 := stride_ge ha dst p
  have dv1 := bps_dvd_stride hv.ok h4 p
  have dv2 := bps_dvd_stride (f := dst) (d1 ▸ fmtOk geo.fmt geo.known) h4 p
  have sm1 := stride_small h64 ha hv.row (f := src) (p := p) (Nat.div_le_self _ _)
  have sm2 := stride_small h64 ha (f := dst) (W := src.height) (by rw [d1]; exact geo.row) (p := p) (by
    rw [kw]; exact Nat.div_le_self _ _)
  rw [d1, hb] at st2 dv2
  rw [kw] at st2
  have hh31 : src.h p < 2 ^ 31 := by
    have h1 : src.h p ≤ src.height := Nat.div_le_self _ _
    have h2 := hv.rows
    unfold INT_MAX at h2
    omega
  have hw31 : src.w p < 2 ^ 31 := by
    have h1 : src.w p ≤ src.width := Nat.div_le_self _ _
    have h2 := geo.rows
    unfold INT_MAX at h2
    omega
  let RC : Nat → Nat := fun i => if mode = .turn90 then src.h p - 1 - i else i
  let RD : Nat → Nat := fun j => if mode = .turn270 then src.w p - 1 - j else j
  have hRC : ∀ i, i < src.h p → RC i < src.h p := by
    intro i hi; show (if mode = .turn90 then src.h p - 1 - i else i) < src.h p; split <;> omega
  have hRD : ∀ j, j < src.w p → RD j < src.w p := by
    intro i hi; show (if mode = .turn270 then src.w p - 1 - i else i) < src.w p; split <;> omega
  have hRR : ∀ j, j < src.w p → RD (RD j) = j := by
    intro j hj
    show (if mode = .turn270 then src.w p - 1 - (if mode = .turn270 then src.w p - 1 - j else j)
      else (if mode = .turn270 then src.w p - 1 - j else j)) = j
    by_cases hm : mode = .turn270
    · simp only [if_pos hm]; omega
    · simp only [if_neg hm]
  have offs : ∀ (i S : Nat) (H : Nat) (c : Prop) [Decidable c], i < H → H < 2 ^ 31 → S < 2 ^ 32 → bps src.fmt ∣ S →
      (if c then (S : Int) * ((H : Int) - 1) else 0) + addOffset (i * (if c then -(S : Int) else S)) (bps src.fmt) =
        ((if c then H - 1 - i else i) * S : Nat) := by
    intro i S H c _ hi hH hS hd
    have hsm : i * S < 2 ^ 63 := mul_small (by omega) hS
    have hd' : bps src.fmt ∣ i * S := Nat.dvd_mul_left_of_dvd hd _
    by_cases hc : c
    · rw [if_pos hc, if_pos hc, if_pos hc]
      have e1 : (i : Int) * -(S : Int) = -((i * S : Nat) : Int) := by rw [Int.mul_neg, Int.natCast_mul]
      rw [e1, addOffset_neg hz hd' hsm, ← e1]
      exact back_row hi
    · rw [if_neg hc, if_neg hc, if_neg hc, ← Int.natCast_mul, addOffset_nat hz hd' hsm, Int.zero_add]
  obtain ⟨q1, q2, q3⟩ := hblk _ hz
  have hcl : 0 < 64 / bps src.fmt := by rcases hz with e | e | e <;> rw [e] <;> decide
  obtain ⟨b', f0, f1, f2⟩ := planeT (N := b.size) (sz := bps src.fmt) (s := s)
    (D := fun i j => RD j * dst.stride al p + i * bps src.fmt)
    (C := fun i j => RC i * src.stride al p + j * bps src.fmt) (w := src.w p) (h := src.h p)
    (so := if mode = .turn90 then (src.stride al p : Int) * ((src.h p : Int) - 1) else 0)
    (ss := if mode = .turn90 then -(src.stride al p : Int) else src.stride al p)
    (dof := if mode = .turn270 then (dst.stride al p : Int) * ((src.w p : Int) - 1) else 0)
    (ds := if mode = .turn270 then -(dst.stride al p : Int) else dst.stride al p)
    (by
      intro i j hi hj
      unfold transposeSample
      refine Adds.cell (G := fun y x => y < src.h p ∧ x < src.w p) ?_ ?_ ?_ ⟨hi, hj⟩ ?_ ?_
      · rintro y x ⟨hy, hx⟩
        rw [hbz, kh]
        exact cell_fit st2 (hRD x hx) hy
      · rintro y x ⟨hy, hx⟩
        rw [hsz]
        exact cell_fit st1 (hRC y hy) hx
      · rintro y x y' x' ⟨hy, hx⟩ ⟨hy', hx'⟩ hne
        refine cell_disj st2 hy hy' ?_
        rcases hne with h | h
        · right; exact h
        · left
          intro hh
          rw [← hRR x hx, ← hRR x' hx', hh] at h
          exact h rfl
      · rw [offs j _ _ _ hj hw31 sm2 dv2]
        rw [← Int.natCast_add]
      · rw [offs i _ _ _ hi hh31 sm1 dv1]
        rw [← Int.natCast_add])
    q1 q2 hcl q3 b rfl
  refine ⟨b', ?_, f1, ?_⟩
  · unfold transposePlane
    simp only
    rw [es, Res.bind_ok, d1, hb]
    exact f0
  · intro u v hu hv'
    rw [kw] at hu
    rw [kh] at hv'
    have hpx : (turned mode (img al src p)).px u v = (img al src p).px (RD v) (RC u) := by
      show _ = (img al src p).px (if mode = .turn270 then src.w p - 1 - v else v) (if mode = .turn90 then src.h p - 1 - u else u)
      cases mode <;> rfl
    rw [hpx, img_px hs, hb]
    refine range_congr (fun k hk => ?_)
    have := f2 u (RD v) hu (hRD v hv') k hk
    rw [hRR v hv'] at this
    exact this

end VS.Pix
