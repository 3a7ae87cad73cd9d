import Verif.Pix.LemmasClip

/-! # Crop and AddBorders on one frame -/

namespace VS.Pix
open VS VS.Format VS.Map VS.Map.Spec VS.Pix.Spec

theorem valid_props {al : Nat} {f : Frm} (h : Valid al f) (d : Dict) : Valid al { f with props := d } :=
  ⟨h.fmt, h.known, h.width, h.height, h.modW, h.modH, h.row, h.rows, h.count, h.size⟩

theorem beyond_ok {x y w h W H : Int} (h1 : InI32 (h + y)) (h2 : InI32 (w + x)) (hW : 0 < W) (hH : 0 < H) :
    beyond x y w h W H = .ok (decide (H < h + y ∨ W < w + x)) := by
  unfold beyond
  rw [if_pos ⟨hH, hW⟩, i32_ok h1, Res.bind_ok]
  by_cases h : H < h + y
  · simp [h]
  · rw [if_neg h, i32_ok h2, Res.bind_ok]
    simp [h]

/-- What `cropVerify` accepts if the sums do not overflow. -/
theorem cropVerify_none {x y w h W H : Int} {fi : VFmt} (h1 : InI32 (h + y)) (h2 : InI32 (w + x)) (hW : 0 < W) (hH : 0 < H) :
    cropVerify x y w h W H fi = .ok none ↔
      0 ≤ x ∧ 0 ≤ y ∧ Inside fi W.toNat H.toNat x.toNat y.toNat w.toNat h.toNat := by
  unfold cropVerify
  rw [beyond_ok h1 h2 hW hH, Res.bind_ok, Res.ok.injEq, lastMsg_none]
  simp only [List.mem_cons, List.not_mem_nil, or_false, forall_eq_or_imp, forall_eq, decide_eq_false_iff_not, ne_eq, Decidable.not_not,
    not_or, Int.not_lt, Int.not_le]
  constructor
  · rintro ⟨⟨a1, a2⟩, ⟨a3, a4⟩, ⟨a5, a6⟩, a7, a8, a9, a10⟩
    obtain ⟨x, rfl⟩ := Int.eq_ofNat_of_zero_le a2
    obtain ⟨y, rfl⟩ := Int.eq_ofNat_of_zero_le a1
    obtain ⟨w, rfl⟩ := Int.eq_ofNat_of_zero_le (Int.le_of_lt a3)
    obtain ⟨h, rfl⟩ := Int.eq_ofNat_of_zero_le (Int.le_of_lt a4)
    rw [mod_dvd] at a7 a8 a9 a10
    exact ⟨a2, a1, by simp only [Int.toNat_natCast]; omega, by omega, by omega, by simpa using a9, by simpa using a10,
      by simpa using a7, by simpa using a8⟩
  · rintro ⟨a1, a2, b⟩
    obtain ⟨x, rfl⟩ := Int.eq_ofNat_of_zero_le a1
    obtain ⟨y, rfl⟩ := Int.eq_ofNat_of_zero_le a2
    have := b.pos
    obtain ⟨w, rfl⟩ := Int.eq_ofNat_of_zero_le (show 0 ≤ w by omega)
    obtain ⟨h, rfl⟩ := Int.eq_ofNat_of_zero_le (show 0 ≤ h by omega)
    have b1 := b.inW
    have b2 := b.inH
    simp only [Int.toNat_natCast] at b this b1 b2
    refine ⟨by omega, by omega, by omega, ?_, ?_, ?_, ?_⟩
    · exact mod_dvd.2 b.modW
    · exact mod_dvd.2 b.modH
    · exact mod_dvd.2 b.modX
    · exact mod_dvd.2 b.modY

/-- An area that is not accepted is an error. -/
theorem cropVerify_some {x y w h W H : Int} {fi : VFmt} (h1 : InI32 (h + y)) (h2 : InI32 (w + x)) (hW : 0 < W) (hH : 0 < H)
    (hn : ¬ (0 ≤ x ∧ 0 ≤ y ∧ Inside fi W.toNat H.toNat x.toNat y.toNat w.toNat h.toNat)) :
    ∃ m, cropVerify x y w h W H fi = .ok (some m) := by
  rw [← cropVerify_none (fi := fi) h1 h2 hW hH] at hn
  unfold cropVerify at hn ⊢
  rw [beyond_ok h1 h2 hW hH, Res.bind_ok] at hn ⊢
  generalize lastMsg _ = o at hn
  cases o with
  | none => exact absurd rfl hn
  | some m => exact ⟨m, rfl⟩

theorem crop_geo {al : Nat} {src : Frm} (hv : Valid al src) {x y w h : Nat} (hf : Inside src.fmt src.width src.height x y w h) :
    Geo src.fmt w h := by
  have h1 := hf.inW
  have h2 := hf.inH
  have h3 := hv.row
  have h4 := hv.rows
  refine ⟨hv.fmt, hv.known, hf.pos.1, hf.pos.2, hf.modW, hf.modH, Int.le_trans ?_ hv.row, by omega⟩
  exact Int.mul_le_mul_of_nonneg_right (by omega) (by omega)

/-- `cropGetframe` on an area inside of the frame. -/
theorem cropFrame_ok {al : Nat} (ha : 0 < al) {src : Frm} (hv : Valid al src) {x y w h : Nat}
    (hf : Inside src.fmt src.width src.height x y w h) (junk : Junk) :
    ∃ g, cropFrame al x y w h src junk = .ok g ∧ Valid al g ∧ g.fmt = src.fmt ∧ g.width = w ∧ g.height = h ∧
      g.props = swapFields (decide (y % 2 = 1)) src.props ∧
      ∀ p : Nat, (p : Int) < src.fmt.numPlanes → (img al g p).Same (crop (x / 2 ^ ssw src.fmt p) (y / 2 ^ ssh src.fmt p)
        (w / 2 ^ ssw src.fmt p) (h / 2 ^ ssh src.fmt p) (img al src p)) := by
  have hw1 := hf.inW
  have hh1 := hf.inH
  have hrow := hv.row
  have hrows := hv.rows
  have hbp := hv.ok.pos
  have hW : (src.width : Int) ≤ INT_MAX := by
    refine Int.le_trans ?_ hrow
    have : (src.width : Int) * 1 ≤ src.width * bps src.fmt := Int.mul_le_mul_of_nonneg_left (by omega) (by omega)
    omega
  have geo := crop_geo hv hf
  obtain ⟨g, e, h1, h2, h3, h4, h5, h6⟩ := make_ok (al := al) geo src.props junk (fun dst => cropPlane al x y w src dst)
    (fun p => crop (x / 2 ^ ssw src.fmt p) (y / 2 ^ ssh src.fmt p)
        (w / 2 ^ ssw src.fmt p) (h / 2 ^ ssh src.fmt p) (img al src p)) (fun _ _ => rfl) (fun _ _ => rfl)
    (by
      intro dst d1 d2 d3 p b hp hb
      obtain ⟨s, hs, es, hsz⟩ := hv.plane_ok hp
      have kw : dst.w p = w / 2 ^ ssw src.fmt p := by unfold Frm.w; rw [d1, d2]
      have kh : dst.h p = h / 2 ^ ssh src.fmt p := by unfold Frm.h; rw [d1, d3]
      have sw : x / 2 ^ ssw src.fmt p + w / 2 ^ ssw src.fmt p ≤ src.w p := by
        rw [← add_div (dvd_ssw hf.modX p)]
        exact div_le hw1
      have sh : y / 2 ^ ssh src.fmt p + h / 2 ^ ssh src.fmt p ≤ src.h p := by
        rw [← add_div (dvd_ssh hf.modY p)]
        exact div_le hh1
      have m1 := mul32_le (a := x / 2 ^ ssw src.fmt p) hrow (Nat.le_trans (Nat.div_le_self _ _) (by omega))
      have m2 := mul32_le (a := w / 2 ^ ssw src.fmt p) hrow (Nat.le_trans (Nat.div_le_self _ _) (by omega))
      have sd := stride_ge ha dst p
      have ss := stride_ge ha src p
      rw [d1] at sd
      rw [kw] at sd
      generalize eX : x / 2 ^ ssw src.fmt p = X at *
      generalize eY : y / 2 ^ ssh src.fmt p = Y at *
      generalize eW : w / 2 ^ ssw src.fmt p = W at *
      generalize eH : h / 2 ^ ssh src.fmt p = H at *
      have hxw : X * bps src.fmt + W * bps src.fmt ≤ src.w p * bps src.fmt := by
        rw [← Nat.add_mul]; exact Nat.mul_le_mul_right _ sw
      obtain ⟨b', f0, f1, f2, f3⟩ := bitblt_ok b 0 (dst.stride al p) s
        ((src.stride al p * Y : Nat) + (X * bps src.fmt : Nat)) (src.stride al p) (W * bps src.fmt) H
        (fun z => z * dst.stride al p) (fun z => (z + Y) * src.stride al p + X * bps src.fmt)
        (fun z _ => by simp) (fun z _ => by
          rw [Nat.add_mul, Nat.mul_comm Y]
          simp only [Int.natCast_add, Int.natCast_mul]; omega)
        (fun z hz => by
          have := row_le (s := dst.stride al p) hz
          rw [hb, kh]; omega)
        (fun z hz => by
          have := row_le (y := z + Y) (h := src.h p) (s := src.stride al p) (by omega)
          rw [hsz]; omega)
        (fun z1 z2 _ _ hne => by
          have := row_disj (c := 0) (r := W * bps src.fmt) (s := dst.stride al p) (by omega) hne
          simpa using this)
      refine ⟨b', ?_, f1, ?_⟩
      · unfold cropPlane
        rw [es, Res.bind_ok, eX, m1, Res.bind_ok, eW, m2, Res.bind_ok, kh, eY]
        exact f0
      · intro u v hu hv'
        rw [kw] at hu
        rw [kh] at hv'
        show _ = (img al src p).px (u + X) (v + Y)
        rw [img_px hs]
        refine range_congr (fun k hk => ?_)
        have := f2 v (u * bps src.fmt + k) hv' (row_lt hu hk)
        rw [Nat.add_assoc, this]
        congr 1
        rw [Nat.add_mul u X]
        omega)
  have hcv : cropVerify x y w h src.width src.height src.fmt = .ok none := by
    rw [cropVerify_none]
    · exact ⟨by omega, by omega, by simpa using hf⟩
    · unfold InI32 INT_MIN; omega
    · unfold InI32 INT_MIN; omega
    · have := hv.width; omega
    · have := hv.height; omega
  refine ⟨{ g with props := swapFields (decide (y % 2 = 1)) src.props }, ?_, valid_props h1 _, h2, h3, h4, rfl, h6⟩
  unfold cropFrame
  rw [hcv, Res.bind_ok]
  simp only [Int.toNat_natCast]
  rw [← bind_assoc, e, Res.bind_ok, h5]
  congr 3
  exact decide_eq_decide.2 (by omega)

end VS.Pix
