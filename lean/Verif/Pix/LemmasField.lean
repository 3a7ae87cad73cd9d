import Verif.Pix.LemmasFlip

/-! # SeparateFields and DoubleWeave on one frame -/

namespace VS.Pix
open VS VS.Format VS.Map VS.Map.Spec VS.Pix.Spec

theorem geo_half {al : Nat} {src : Frm} (hv : Valid al src) (h2 : 2 ^ (src.fmt.subSamplingH.toNat + 1) ∣ src.height) :
    Geo src.fmt src.width (src.height / 2) := by
  obtain ⟨k, hk⟩ := h2
  have e : src.height / 2 = 2 ^ src.fmt.subSamplingH.toNat * k := by
    rw [hk, Nat.pow_succ, Nat.mul_comm (2 ^ _) 2, Nat.mul_assoc, Nat.mul_div_cancel_left _ (by omega)]
  have hh := hv.height
  have := hv.rows
  refine ⟨hv.fmt, hv.known, hv.width, ?_, hv.modW, ?_, hv.row, by omega⟩
  · have : 2 ∣ src.height := by rw [hk, Nat.pow_succ, Nat.mul_comm (2 ^ _) 2, Nat.mul_assoc]; exact Nat.dvd_mul_right _ _
    omega
  · rw [e]; exact Nat.dvd_mul_right _ _

/-- Half of the rows of each plane. -/
theorem half_div {s h : Nat} (h2 : 2 ^ (s + 1) ∣ h) {t : Nat} (ht : t ≤ s) : h / 2 / 2 ^ t = h / 2 ^ t / 2 ∧ 2 ∣ h / 2 ^ t := by
  constructor
  · rw [Nat.div_div_eq_div_mul, Nat.div_div_eq_div_mul, Nat.mul_comm]
  · obtain ⟨k, rfl⟩ := h2
    rw [show s + 1 = t + (s - t + 1) by omega, Nat.pow_add, Nat.mul_assoc, Nat.mul_div_cancel_left _ (Nat.two_pow_pos t),
      Nat.pow_succ, Nat.mul_comm (2 ^ _) 2, Nat.mul_assoc]
    exact Nat.dvd_mul_right _ _

theorem ssh_le (f : VFmt) (p : Nat) : ssh f p ≤ f.subSamplingH.toNat := by unfold ssh; split <;> omega

/-- The planes of `separateFieldsGetframe`. -/
theorem fieldBuild_ok {al : Nat} (ha : 0 < al) (top : Bool) {src : Frm} (hv : Valid al src)
    (h2 : 2 ^ (src.fmt.subSamplingH.toNat + 1) ∣ src.height) (props : Dict) (junk : Junk) :
    ∃ g, (newVideoFrame al src.fmt src.width (src.height / 2 : Nat) props junk >>= fun dst =>
        dst.build (fieldPlane al top src dst)) = .ok g ∧ Valid al g ∧ g.fmt = src.fmt ∧ g.width = src.width ∧
      g.height = src.height / 2 ∧ g.props = props ∧
      ∀ p : Nat, (p : Int) < src.fmt.numPlanes → (img al g p).Same (field top (img al src p)) := by
  refine make_ok (al := al) (geo_half hv h2) props junk (fun dst => fieldPlane al top src dst) (fun p => field top (img al src p))
    (fun _ _ => rfl) (fun p _ => ((half_div h2 (ssh_le src.fmt p)).1).symm) ?_
  intro dst d1 d2 d3 p b hp hb
  obtain ⟨s, hs, es, hsz⟩ := hv.plane_ok hp
  have kw : dst.w p = src.w p := by unfold Frm.w; rw [d1, d2]
  have kh : dst.h p = src.h p / 2 := by unfold Frm.h; rw [d1, d3]; exact (half_div h2 (ssh_le src.fmt p)).1
  have ks : dst.stride al p = src.stride al p := stride_congr al kw (by rw [d1])
  have m1 := mul32_le (a := src.w p) hv.row (Nat.div_le_self _ _)
  have ss := stride_ge ha src p
  obtain ⟨b', f0, f1, f2, f3⟩ := bitblt_ok b 0 (dst.stride al p) s (if top then 0 else src.stride al p)
    ((src.stride al p : Int) * 2) (src.w p * bps src.fmt) (dst.h p)
    (fun z => z * src.stride al p) (fun z => (2 * z + if top then 0 else 1) * src.stride al p)
    (fun z hz => by rw [ks]; simp) (fun z _ => by
      rw [Nat.add_mul, Nat.mul_comm 2 z, Nat.mul_assoc, Int.mul_comm (src.stride al p : Int) 2]
      cases top
      · simp only [Bool.false_eq_true, if_false, Nat.one_mul, Int.natCast_add, Int.natCast_mul, Int.cast_ofNat_Int, Int.natCast_zero]; omega
      · simp only [if_true, Nat.zero_mul, Int.natCast_add, Int.natCast_mul, Int.cast_ofNat_Int, Int.natCast_zero]; omega)
    (fun z hz => by
      have := row_le (s := src.stride al p) hz
      rw [hb, ks]; omega)
    (fun z hz => by
      have := row_le (y := 2 * z + if top then 0 else 1) (h := src.h p) (s := src.stride al p) (by split <;> omega)
      rw [hsz]; omega)
    (fun z1 z2 h1 h2 hne => by
      have := row_disj (c := 0) (r := src.w p * bps src.fmt) (s := src.stride al p) (by omega) hne
      simpa using this)
  refine ⟨b', ?_, f1, ?_⟩
  · unfold fieldPlane
    rw [es, Res.bind_ok, kw, d1, m1, Res.bind_ok]
    cases top
    · exact f0
    · exact f0
  · intro u v hu hv'
    rw [kw] at hu
    show _ = (img al src p).px u (2 * v + if top then 0 else 1)
    rw [img_px hs]
    refine range_congr (fun k hk => ?_)
    have := f2 v (u * bps src.fmt + k) hv' (row_lt hu hk)
    rw [ks, Nat.add_assoc, this, Nat.add_assoc]

theorem geo_double {al : Nat} {src : Frm} (hv : Valid al src) (h2 : ((src.height * 2 : Nat) : Int) ≤ INT_MAX) :
    Geo src.fmt src.width (src.height * 2) :=
  ⟨hv.fmt, hv.known, hv.width, by have := hv.height; omega, hv.modW, Nat.dvd_mul_right_of_dvd hv.modH _, hv.row, h2⟩

/-- The planes of `doubleWeaveGetframe`. -/
theorem weaveBuild_ok {al : Nat} (ha : 0 < al) {top bottom : Frm} (hv : Valid al top) (hv2 : Valid al bottom)
    (hf : bottom.fmt = top.fmt) (hw : bottom.width = top.width) (hh : bottom.height = top.height)
    (h2 : ((top.height * 2 : Nat) : Int) ≤ INT_MAX) (props : Dict) (junk : Junk) :
    ∃ g, (newVideoFrame al top.fmt top.width (top.height * 2 : Nat) props junk >>= fun dst =>
        dst.build (weavePlane al top bottom dst)) = .ok g ∧ Valid al g ∧ g.fmt = top.fmt ∧ g.width = top.width ∧
      g.height = top.height * 2 ∧ g.props = props ∧
      ∀ p : Nat, (p : Int) < top.fmt.numPlanes → (img al g p).Same (weave (img al top p) (img al bottom p)) := by
  have hdd : ∀ p, top.height * 2 / 2 ^ ssh top.fmt p = 2 * top.h p := by
    intro p
    obtain ⟨k, hk⟩ := dvd_ssh hv.modH p
    unfold Frm.h
    rw [hk, Nat.mul_assoc, Nat.mul_div_cancel_left _ (Nat.two_pow_pos _), Nat.mul_div_cancel_left _ (Nat.two_pow_pos _),
      Nat.mul_comm]
  refine make_ok (al := al) (geo_double hv h2) props junk (fun dst => weavePlane al top bottom dst)
    (fun p => weave (img al top p) (img al bottom p)) (fun _ _ => rfl) (fun p _ => (hdd p).symm) ?_
  intro dst d1 d2 d3 p b hp hb
  obtain ⟨s, hs, es, hsz⟩ := hv.plane_ok hp
  obtain ⟨t, ht, et, htz⟩ := hv2.plane_ok (show (p : Int) < bottom.fmt.numPlanes by rw [hf]; exact hp)
  have kw : dst.w p = top.w p := by unfold Frm.w; rw [d1, d2]
  have kw2 : bottom.w p = top.w p := by unfold Frm.w; rw [hf, hw]
  have kh2 : bottom.h p = top.h p := by unfold Frm.h; rw [hf, hh]
  have kh : dst.h p = 2 * top.h p := by unfold Frm.h; rw [d1, d3]; exact hdd p
  have ks : dst.stride al p = top.stride al p := stride_congr al kw (by rw [d1])
  have ks2 : bottom.stride al p = top.stride al p := stride_congr al kw2 (by rw [hf])
  have m1 := mul32_le (a := top.w p) hv.row (Nat.div_le_self _ _)
  have ss := stride_ge ha top p
  rw [kh, ks] at hb
  rw [ks2, kh2] at htz
  obtain ⟨b', f0, f1, f2⟩ := forN_spec (fun y b => do
      let b ← memcpy b (2 * y * dst.stride al p : Nat) s (y * bottom.stride al p : Nat) (top.w p * bps top.fmt)
      memcpy b ((2 * y + 1) * dst.stride al p : Nat) t (y * bottom.stride al p : Nat) (top.w p * bps top.fmt))
    (fun m b' => b'.size = b.size ∧ ∀ v i, v < 2 * m → i < top.w p * bps top.fmt →
      b'.byte (v * top.stride al p + i) = (if v % 2 = 0 then s else t).byte (v / 2 * top.stride al p + i)) (top.h p) b
    ⟨rfl, fun v i hv => absurd hv (Nat.not_lt_zero _)⟩
    (by
      rintro m b1 hm ⟨g1, g2⟩
      have r0 := row_le (y := 2 * m) (h := 2 * top.h p) (s := top.stride al p) (by omega)
      have r1 := row_le (y := 2 * m + 1) (h := 2 * top.h p) (s := top.stride al p) (by omega)
      have r2 := row_le (s := top.stride al p) hm
      obtain ⟨b2, q0, q1, q2, q3⟩ := memcpy_ok b1 (2 * m * top.stride al p) s (m * top.stride al p) (top.w p * bps top.fmt)
        (by omega) (by omega)
      obtain ⟨b3, t0, t1, t2, t3⟩ := memcpy_ok b2 ((2 * m + 1) * top.stride al p) t (m * top.stride al p) (top.w p * bps top.fmt)
        (by omega) (by omega)
      refine ⟨b3, ?_, by omega, ?_⟩
      · rw [ks, ks2, q0, Res.bind_ok, t0]
      · intro v i hv hi
        by_cases e1 : v = 2 * m + 1
        · subst e1
          rw [if_neg (by omega), t2 i hi]
          congr 2
          rw [show (2 * m + 1) / 2 = m by omega]
        · have n1 := row_disj (c := 0) (r := top.stride al p) (s := top.stride al p) (by omega) e1
          rw [t3 _ (by omega)]
          by_cases e0 : v = 2 * m
          · subst e0
            rw [if_pos (by omega), q2 i hi]
            congr 2
            rw [show 2 * m / 2 = m by omega]
          · have n0 := row_disj (c := 0) (r := top.stride al p) (s := top.stride al p) (by omega) e0
            rw [q3 _ (by omega)]
            exact g2 v i (by omega) hi)
  refine ⟨b', ?_, f1, ?_⟩
  · unfold weavePlane
    rw [es, Res.bind_ok, et, Res.bind_ok, kw, d1, m1, Res.bind_ok]
    exact f0
  · intro u v hu hv'
    rw [kw] at hu
    rw [kh] at hv'
    show _ = if v % 2 = 0 then (img al top p).px u (v / 2) else (img al bottom p).px u (v / 2)
    rw [img_px hs, img_px ht, hf, ks2]
    have : ∀ k, k < bps top.fmt → b'.byte (v * dst.stride al p + u * bps top.fmt + k) =
        (if v % 2 = 0 then s else t).byte (v / 2 * top.stride al p + u * bps top.fmt + k) := by
      intro k hk
      rw [ks, Nat.add_assoc, f2 v _ hv' (row_lt hu hk), Nat.add_assoc]
    split
    · rename_i h
      rw [if_pos h] at this
      exact range_congr this
    · rename_i h
      rw [if_neg h] at this
      exact range_congr this

end VS.Pix
