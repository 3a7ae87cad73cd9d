import Verif.Pix.LemmasCrop

/-! # AddBorders on one frame -/

namespace VS.Pix
open VS VS.Format VS.Map VS.Map.Spec VS.Pix.Spec

theorem lt_iff {u b k P : Nat} (hk : k < b) : u * b + k < P * b ↔ u < P := by
  constructor
  · intro h
    rcases Nat.lt_or_ge u P with h' | h'
    · exact h'
    · have := Nat.mul_le_mul_right b h'
      omega
  · exact fun h => row_lt h hk

theorem mod_eq {u b k : Nat} (hk : k < b) : (u * b + k) % b = k := by
  rw [Nat.mul_comm, Nat.mul_add_mod, Nat.mod_eq_of_lt hk]

/-- The contents of byte `i` of a row with borders. -/
def rowByte (bytes color padl row : Nat) (s : Buf) (so i : Nat) : Nat :=
  if i < padl then leByte color (i % bytes)
  else if i < padl + row then s.byte (so + (i - padl))
  else leByte color ((i - padl - row) % bytes)

theorem borderRow_ok {bytes color padl padr row : Nat} (hb : 0 < bytes) (hl : bytes ∣ padl) (hr : bytes ∣ padr) {s : Buf}
    {d so : Nat} {b : Buf} (h1 : d + (padl + row + padr) ≤ b.size) (h2 : so + row ≤ s.size) :
    ∃ b', borderRow bytes color padl padr row s d so b = .ok b' ∧ b'.size = b.size ∧
      (∀ i, i < padl + row + padr → b'.byte (d + i) = rowByte bytes color padl row s so i) ∧
      ∀ i, ¬ (d ≤ i ∧ i < d + (padl + row + padr)) → b'.byte i = b.byte i := by
  have el : padl / bytes * bytes = padl := Nat.div_mul_cancel hl
  have er : padr / bytes * bytes = padr := Nat.div_mul_cancel hr
  obtain ⟨b1, e1, z1, i1, o1⟩ := memset_ok b d bytes color (padl / bytes) (by omega)
  obtain ⟨b2, e2, z2, i2, o2⟩ := memcpy_ok b1 (d + padl) s so row (by omega) (by omega)
  obtain ⟨b3, e3, z3, i3, o3⟩ := memset_ok b2 (d + padl + row) bytes color (padr / bytes) (by omega)
  rw [el] at i1 o1
  rw [er] at i3 o3
  refine ⟨b3, ?_, by omega, ?_, ?_⟩
  · unfold borderRow
    rw [e1, Res.bind_ok, e2, Res.bind_ok]
    exact e3
  · intro i hi
    unfold rowByte
    split
    · rw [o3 _ (by omega), o2 _ (by omega), i1 i (by omega)]
    · split
      · rw [o3 _ (by omega)]
        have := i2 (i - padl) (by omega)
        rw [← this]
        congr 1
        omega
      · have := i3 (i - padl - row) (by omega)
        rw [← this]
        congr 1
        omega
  · intro i hi
    rw [o3 _ (by omega), o2 _ (by omega), o1 _ (by omega)]

/-- The whole plane. -/
theorem borderPlane_ok {bytes color padl padr row padt padb h st sst : Nat} (hb : 0 < bytes) (hl : bytes ∣ padl)
    (hr : bytes ∣ padr) (hst : bytes ∣ st) (hfit : padl + row + padr ≤ st) {s b : Buf}
    (h1 : b.size = st * (padt + h + padb)) (h2 : s.size = sst * h) (h3 : row ≤ sst) :
    ∃ b', (memset b 0 bytes color (padt * st / bytes) >>= fun b =>
        forN (fun y => borderRow bytes color padl padr row s (padt * st + y * st) (y * sst)) h b >>= fun b =>
        memset b (padt * st + h * st : Nat) bytes color (padb * st / bytes)) = .ok b' ∧ b'.size = b.size ∧
      ∀ v i, v < padt + h + padb → i < padl + row + padr → b'.byte (v * st + i) =
        if padt ≤ v ∧ v < padt + h then rowByte bytes color padl row s ((v - padt) * sst) i
        else leByte color (i % bytes) := by
  have d1 : padt * st / bytes * bytes = padt * st := Nat.div_mul_cancel (Nat.dvd_trans hst (Nat.dvd_mul_left _ _))
  have d2 : padb * st / bytes * bytes = padb * st := Nat.div_mul_cancel (Nat.dvd_trans hst (Nat.dvd_mul_left _ _))
  have hsz : b.size = padt * st + h * st + padb * st := by
    rw [h1, Nat.mul_comm, Nat.add_mul, Nat.add_mul]
  obtain ⟨b1, e1, z1, i1, _⟩ := memset_ok b 0 bytes color (padt * st / bytes) (by omega)
  rw [d1] at i1
  obtain ⟨b2, e2, z2, i2, j2⟩ := forN_spec
    (fun y => borderRow bytes color padl padr row s (padt * st + y * st) (y * sst))
    (fun m b' => b'.size = b.size ∧ (∀ i, i < padt * st → b'.byte i = leByte color (i % bytes)) ∧
      ∀ z i, z < m → i < padl + row + padr → b'.byte (padt * st + z * st + i) = rowByte bytes color padl row s (z * sst) i)
    h b1 ⟨z1, fun i hi => by have := i1 i hi; rwa [Nat.zero_add] at this, fun z i hz => absurd hz (Nat.not_lt_zero _)⟩
    (by
      rintro m b' hm ⟨g1, g2, g3⟩
      have r1 := row_le (s := st) hm
      have r2 := row_le (s := sst) hm
      rw [Nat.mul_comm st] at r1
      obtain ⟨b'', f0, f1, f2, f3⟩ := borderRow_ok (color := color) hb hl hr (s := s) (d := padt * st + m * st) (so := m * sst) (b := b')
        (row := row) (by omega) (by omega)
      refine ⟨b'', f0, by omega, ?_, ?_⟩
      · intro i hi
        rw [f3 i (by omega)]
        exact g2 i hi
      · intro z i hz hi
        rcases Nat.lt_succ_iff_lt_or_eq.1 hz with hz | rfl
        · rw [f3 _ (by
            have := row_disj (c := 0) (r := st) (s := st) (by omega) (show z ≠ m by omega)
            omega)]
          exact g3 z i hz hi
        · exact f2 i hi)
  obtain ⟨b3, e3, z3, i3, o3⟩ := memset_ok b2 (padt * st + h * st) bytes color (padb * st / bytes) (by omega)
  rw [d2] at i3 o3
  refine ⟨b3, ?_, by omega, ?_⟩
  · have e1' : memset b 0 bytes color (padt * st / bytes) = .ok b1 := e1
    rw [e1', Res.bind_ok, e2, Res.bind_ok]
    exact e3
  · intro v i hv hi
    have hmod : ∀ z, (z * st + i) % bytes = i % bytes := by
      intro z
      obtain ⟨q, rfl⟩ := hst
      rw [show z * (bytes * q) = bytes * (z * q) from Nat.mul_left_comm _ _ _, Nat.mul_add_mod]
    rcases Nat.lt_or_ge v padt with h' | h'
    · have := row_le (s := st) h'
      rw [Nat.mul_comm st] at this
      rw [if_neg (by omega), o3 _ (by omega), i2 _ (by omega), hmod]
    · rcases Nat.lt_or_ge v (padt + h) with h'' | h''
      · rw [if_pos ⟨h', h''⟩]
        have r := row_le (y := v - padt) (h := h) (s := st) (by omega)
        rw [Nat.mul_comm st] at r
        have ev : v * st = padt * st + (v - padt) * st := by rw [← Nat.add_mul]; congr 1; omega
        rw [ev, o3 _ (by omega)]
        exact j2 (v - padt) i (by omega) hi
      · rw [if_neg (by omega)]
        have r := row_le (y := v - padt - h) (h := padb) (s := st) (by omega)
        rw [Nat.mul_comm st] at r
        have ev : v * st = padt * st + h * st + (v - padt - h) * st := by
          rw [← Nat.add_mul, ← Nat.add_mul]; congr 1; omega
        rw [ev, Nat.add_assoc (padt * st + h * st)]
        rw [i3 _ (by omega), hmod]

theorem addBordersVerify_none {l r t b : Nat} {f : VFmt} : addBordersVerify l r t b f = none ↔ BorderOk f l r t b := by
  unfold addBordersVerify
  rw [lastMsg_none]
  simp only [List.mem_cons, List.not_mem_nil, or_false, forall_eq_or_imp, forall_eq, decide_eq_false_iff_not, ne_eq,
    Decidable.not_not, mod_dvd]
  exact ⟨fun h => ⟨h.1, h.2.1, h.2.2.1, h.2.2.2⟩, fun h => ⟨h.1, h.2, h.3, h.4⟩⟩

theorem border_geo {al : Nat} {src : Frm} (hv : Valid al src) {l r t b : Nat} (hb : BorderOk src.fmt l r t b)
    (hw : ((l + src.width + r : Nat) : Int) * bps src.fmt ≤ INT_MAX) (hh : ((t + src.height + b : Nat) : Int) ≤ INT_MAX) :
    Geo src.fmt (l + src.width + r) (t + src.height + b) :=
  ⟨hv.fmt, hv.known, by have := hv.width; omega, by have := hv.height; omega,
    Nat.dvd_add (Nat.dvd_add hb.modL hv.modW) hb.modR, Nat.dvd_add (Nat.dvd_add hb.modT hv.modH) hb.modB, hw, hh⟩

/-- `addBordersGetframe`. -/
theorem addBordersFrame_ok {al : Nat} (ha : 0 < al) (h4 : 4 ∣ al) {src : Frm} (hv : Valid al src) {l r t b : Nat}
    (hb : BorderOk src.fmt l r t b) (hw : ((l + src.width + r : Nat) : Int) * bps src.fmt ≤ INT_MAX)
    (hh : ((t + src.height + b : Nat) : Int) ≤ INT_MAX) (color : Nat → Nat) (junk : Junk) :
    ∃ g, addBordersFrame al l r t b color src junk = .ok g ∧ Valid al g ∧ g.fmt = src.fmt ∧ g.width = l + src.width + r ∧
      g.height = t + src.height + b ∧ g.props = swapFields (decide (t % 2 = 1)) src.props ∧
      ∀ p : Nat, (p : Int) < src.fmt.numPlanes → (img al g p).Same
        (border (l / 2 ^ ssw src.fmt p) (r / 2 ^ ssw src.fmt p) (t / 2 ^ ssh src.fmt p) (b / 2 ^ ssh src.fmt p)
          (bytesOf (bps src.fmt) (color p)) (img al src p)) := by
  have geo := border_geo hv hb hw hh
  have hbp := hv.ok.pos
  have hwd : ∀ p, (l + src.width + r) / 2 ^ ssw src.fmt p =
      l / 2 ^ ssw src.fmt p + src.w p + r / 2 ^ ssw src.fmt p := fun p => by
    rw [add_div (Nat.dvd_add (dvd_ssw hb.modL p) (dvd_ssw hv.modW p)), add_div (dvd_ssw hb.modL p)]; rfl
  have hhd : ∀ p, (t + src.height + b) / 2 ^ ssh src.fmt p =
      t / 2 ^ ssh src.fmt p + src.h p + b / 2 ^ ssh src.fmt p := fun p => by
    rw [add_div (Nat.dvd_add (dvd_ssh hb.modT p) (dvd_ssh hv.modH p)), add_div (dvd_ssh hb.modT p)]; rfl
  obtain ⟨g, e, h1, h2, h3, h4, h5, h6⟩ := make_ok (al := al) geo src.props junk
    (fun dst p => borderPlane al l r t b (color p) src dst p)
    (fun p => border (l / 2 ^ ssw src.fmt p) (r / 2 ^ ssw src.fmt p) (t / 2 ^ ssh src.fmt p) (b / 2 ^ ssh src.fmt p)
          (bytesOf (bps src.fmt) (color p)) (img al src p)) (fun p _ => (hwd p).symm) (fun p _ => (hhd p).symm)
    (by
      intro dst d1 d2 d3 p B hp hB
      obtain ⟨s, hs, es, hsz⟩ := hv.plane_ok hp
      have kw : dst.w p = l / 2 ^ ssw src.fmt p + src.w p + r / 2 ^ ssw src.fmt p := by
        unfold Frm.w; rw [d1, d2]; exact hwd p
      have kh : dst.h p = t / 2 ^ ssh src.fmt p + src.h p + b / 2 ^ ssh src.fmt p := by
        unfold Frm.h; rw [d1, d3]; exact hhd p
      have lel := Nat.div_le_self l (2 ^ ssw src.fmt p)
      have ler := Nat.div_le_self r (2 ^ ssw src.fmt p)
      have les := Nat.div_le_self src.width (2 ^ ssw src.fmt p)
      have m0 := mul32_le (a := src.w p) hw (show src.width / 2 ^ ssw src.fmt p ≤ _ by omega)
      have m1 := mul32_le (a := l / 2 ^ ssw src.fmt p) hw (by omega)
      have m2 := mul32_le (a := r / 2 ^ ssw src.fmt p) hw (by omega)
      have sd := stride_ge ha dst p
      have ss := stride_ge ha src p
      have dv := bps_dvd_stride (f := dst) (d1 ▸ hv.ok) h4 p
      rw [d1] at sd dv
      rw [kw] at sd
      rw [kh] at hB
      have hv' : ∀ x y, (img al src p).px x y = (List.range (bps src.fmt)).map fun k =>
          s.byte (y * src.stride al p + x * bps src.fmt + k) := img_px hs
      have hiw : (img al src p).w = src.w p := rfl
      have hih : (img al src p).h = src.h p := rfl
      generalize eL : l / 2 ^ ssw src.fmt p = L at *
      generalize eR : r / 2 ^ ssw src.fmt p = R at *
      generalize eT : t / 2 ^ ssh src.fmt p = T at *
      generalize eB : b / 2 ^ ssh src.fmt p = Bo at *
      rw [Nat.add_mul, Nat.add_mul] at sd
      obtain ⟨b', f0, f1, f2⟩ := borderPlane_ok (color := color p) (padl := L * bps src.fmt) (padr := R * bps src.fmt)
        (row := src.w p * bps src.fmt) hbp (Nat.dvd_mul_left _ _) (Nat.dvd_mul_left _ _) dv sd hB hsz ss
      refine ⟨b', ?_, f1, ?_⟩
      · unfold borderPlane
        simp only
        rw [es, Res.bind_ok, m0, Res.bind_ok, eL, m1, Res.bind_ok, eR, m2, Res.bind_ok, eT, eB]
        exact f0
      · intro u v hu hvv
        rw [kw] at hu
        rw [kh] at hvv
        unfold border
        simp only [hiw, hih]
        have hrow : ∀ k, k < bps src.fmt → u * bps src.fmt + k < L * bps src.fmt + src.w p * bps src.fmt + R * bps src.fmt := by
          intro k hk
          rw [← Nat.add_mul, ← Nat.add_mul]
          exact row_lt hu hk
        by_cases hin : L ≤ u ∧ u < L + src.w p ∧ T ≤ v ∧ v < T + src.h p
        · rw [if_pos hin, hv']
          refine range_congr (fun k hk => ?_)
          rw [Nat.add_assoc, f2 v _ hvv (hrow k hk), if_pos ⟨hin.2.2.1, hin.2.2.2⟩]
          unfold rowByte
          have c1 : ¬ u * bps src.fmt + k < L * bps src.fmt := by rw [lt_iff hk]; omega
          have c2 : u * bps src.fmt + k < L * bps src.fmt + src.w p * bps src.fmt := by
            rw [← Nat.add_mul, lt_iff hk]; omega
          rw [if_neg c1, if_pos c2, Nat.sub_mul u L]
          congr 1
          have := Nat.mul_le_mul_right (bps src.fmt) hin.1
          omega
        · rw [if_neg hin]
          unfold bytesOf
          refine range_congr (fun k hk => ?_)
          rw [Nat.add_assoc, f2 v _ hvv (hrow k hk)]
          by_cases hvin : T ≤ v ∧ v < T + src.h p
          · rw [if_pos hvin]
            unfold rowByte
            by_cases hul : u < L
            · rw [if_pos ((lt_iff hk).2 hul), mod_eq hk]
              rfl
            · have c1 : ¬ u * bps src.fmt + k < L * bps src.fmt := by rw [lt_iff hk]; omega
              have c2 : ¬ u * bps src.fmt + k < L * bps src.fmt + src.w p * bps src.fmt := by
                rw [← Nat.add_mul, lt_iff hk]; omega
              rw [if_neg c1, if_neg c2]
              have : u * bps src.fmt + k - L * bps src.fmt - src.w p * bps src.fmt = (u - L - src.w p) * bps src.fmt + k := by
                rw [Nat.sub_mul, Nat.sub_mul]
                rw [← Nat.add_mul] at c2
                have := Nat.mul_le_mul_right (bps src.fmt) (show L + src.w p ≤ u by omega)
                rw [Nat.add_mul] at this
                omega
              rw [this, mod_eq hk]
              rfl
          · rw [if_neg hvin, mod_eq hk]
            rfl)
  refine ⟨{ g with props := swapFields (decide (t % 2 = 1)) src.props }, ?_, valid_props h1 _, h2, h3, h4, rfl, h6⟩
  have hwi : ((l + src.width + r : Nat) : Int) ≤ INT_MAX := by
    refine Int.le_trans ?_ hw
    have : ((l + src.width + r : Nat) : Int) * 1 ≤ (l + src.width + r : Nat) * bps src.fmt :=
      Int.mul_le_mul_of_nonneg_left (by omega) (by omega)
    omega
  unfold addBordersFrame
  rw [addBordersVerify_none.2 hb]
  simp only
  rw [i32_ok (by unfold InI32 INT_MIN; omega), Res.bind_ok, i32_ok (by unfold InI32 INT_MIN; omega), Res.bind_ok,
    i32_ok (by unfold InI32 INT_MIN; omega), Res.bind_ok, i32_ok (by unfold InI32 INT_MIN; omega), Res.bind_ok]
  simp only [Int.toNat_natCast]
  rw [show (src.width : Int) + l + r = (l + src.width + r : Nat) by omega,
    show (src.height : Int) + t + b = (t + src.height + b : Nat) by omega, ← bind_assoc, e, Res.bind_ok, h5]
  congr 3
  exact decide_eq_decide.2 (by omega)

end VS.Pix
