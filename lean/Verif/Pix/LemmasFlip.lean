import Verif.Pix.LemmasBorder

/-! # Flips, fields and weaving on one frame -/

namespace VS.Pix
open VS VS.Format VS.Map VS.Map.Spec VS.Pix.Spec

/-! ## Loops that fill cells -/

/-- The cells in `S` are done: `n` bytes at `D y x` are those of the source at `C y x`. -/
def Cells (N n : Nat) (s : Buf) (D C : Nat → Nat → Nat) (S : Nat → Nat → Prop) (b : Buf) : Prop :=
  b.size = N ∧ ∀ y x, S y x → ∀ k, k < n → b.byte (D y x + k) = s.byte (C y x + k)

theorem Cells.mono {N n : Nat} {s : Buf} {D C : Nat → Nat → Nat} {S T : Nat → Nat → Prop} {b : Buf}
    (h : Cells N n s D C S b) (hs : ∀ y x, T y x → S y x) : Cells N n s D C T b :=
  ⟨h.1, fun y x ht => h.2 y x (hs y x ht)⟩

/-- The operation does the cells in `R`. -/
def Adds (I : (Nat → Nat → Prop) → Buf → Prop) (op : Buf → Res Buf) (R : Nat → Nat → Prop) : Prop :=
  ∀ S b, I S b → ∃ b', op b = .ok b' ∧ I (fun y x => S y x ∨ R y x) b'

theorem Adds.loop {N n : Nat} {s : Buf} {D C : Nat → Nat → Nat} {f : Nat → Buf → Res Buf} {step i m : Nat}
    {R : Nat → Nat → Nat → Prop} (G : Nat → Nat → Prop)
    (h : ∀ k, k < m → Adds (fun S => Cells N n s D C (fun y x => G y x ∧ S y x)) (f (i + k * step)) (R k)) :
    Adds (fun S => Cells N n s D C (fun y x => G y x ∧ S y x)) (forFrom f step i m) (fun y x => ∃ k, k < m ∧ R k y x) := by
  intro S b hI
  obtain ⟨b', e, hb⟩ := forFrom_spec f step
    (fun t b => Cells N n s D C (fun y x => G y x ∧ (S y x ∨ ∃ k, k < t ∧ R k y x)) b) i m b
    (hI.mono (fun y x hx => by
      obtain ⟨h1, h2 | ⟨k, hk, _⟩⟩ := hx
      · exact ⟨h1, h2⟩
      · exact absurd hk (Nat.not_lt_zero _)))
    (by
      intro t b1 ht h1
      obtain ⟨b2, e2, h2⟩ := h t ht _ b1 h1
      refine ⟨b2, e2, h2.mono ?_⟩
      rintro y x ⟨hg, hs | ⟨k, hk, hr⟩⟩
      · exact ⟨hg, Or.inl (Or.inl hs)⟩
      · rcases Nat.lt_succ_iff_lt_or_eq.1 hk with hk | rfl
        · exact ⟨hg, Or.inl (Or.inr ⟨k, hk, hr⟩)⟩
        · exact ⟨hg, Or.inr hr⟩)
  exact ⟨b', e, hb⟩

theorem Adds.bind {N n : Nat} {s : Buf} {D C : Nat → Nat → Nat} {f g : Buf → Res Buf} {R Q : Nat → Nat → Prop}
    (G : Nat → Nat → Prop) (hf : Adds (fun S => Cells N n s D C (fun y x => G y x ∧ S y x)) f R)
    (hg : Adds (fun S => Cells N n s D C (fun y x => G y x ∧ S y x)) g Q) :
    Adds (fun S => Cells N n s D C (fun y x => G y x ∧ S y x)) (fun b => f b >>= g) (fun y x => R y x ∨ Q y x) := by
  intro S b hI
  obtain ⟨b1, e1, h1⟩ := hf S b hI
  obtain ⟨b2, e2, h2⟩ := hg _ b1 h1
  refine ⟨b2, by show f b >>= g = _; rw [e1, Res.bind_ok, e2], h2.mono ?_⟩
  rintro y x ⟨hG, h | h | h⟩
  · exact ⟨hG, Or.inl (Or.inl h)⟩
  · exact ⟨hG, Or.inl (Or.inr h)⟩
  · exact ⟨hG, Or.inr h⟩

/-- Copying one cell. -/
theorem Adds.cell {N n : Nat} {s : Buf} {D C : Nat → Nat → Nat} {G : Nat → Nat → Prop}
    (hD : ∀ y x, G y x → D y x + n ≤ N) (hC : ∀ y x, G y x → C y x + n ≤ s.size)
    (hx : ∀ y x y' x', G y x → G y' x' → (y ≠ y' ∨ x ≠ x') → D y x + n ≤ D y' x' ∨ D y' x' + n ≤ D y x)
    {y x : Nat} (hG : G y x) {d c : Int} (ed : d = D y x) (ec : c = C y x) :
    Adds (fun S => Cells N n s D C (fun y x => G y x ∧ S y x)) (fun b => memcpy b d s c n) (fun y' x' => y' = y ∧ x' = x) := by
  intro S b hI
  obtain ⟨b', f0, f1, f2, f3⟩ := memcpy_ok b (D y x) s (C y x) n (hI.1 ▸ hD y x hG) (hC y x hG)
  refine ⟨b', by rw [ed, ec]; exact f0, f1.trans hI.1, ?_⟩
  rintro y' x' ⟨hG', h⟩ k hk
  by_cases he : y' = y ∧ x' = x
  · obtain ⟨rfl, rfl⟩ := he
    exact f2 k hk
  · have hs : S y' x' := by
      rcases h with h | h
      · exact h
      · exact absurd h he
    rw [f3 _ (by have := hx y' x' y x hG' hG (by omega); omega)]
    exact hI.2 y' x' ⟨hG', hs⟩ k hk

theorem Adds.run {N n : Nat} {s : Buf} {D C : Nat → Nat → Nat} {G : Nat → Nat → Prop} {op : Buf → Res Buf}
    {R : Nat → Nat → Prop} (h : Adds (fun S => Cells N n s D C (fun y x => G y x ∧ S y x)) op R)
    (hR : ∀ y x, G y x → R y x) (b : Buf) (hb : b.size = N) :
    ∃ b', op b = .ok b' ∧ b'.size = N ∧ ∀ y x, G y x → ∀ k, k < n → b'.byte (D y x + k) = s.byte (C y x + k) := by
  obtain ⟨b', e, h1, h2⟩ := h (fun _ _ => False) b ⟨hb, fun y x hh => hh.2.elim⟩
  exact ⟨b', e, h1, fun y x hG => h2 y x ⟨hG, Or.inr (hR y x hG)⟩⟩

/-- Cells in rows do not overlap. -/
theorem cell_disj {n s w y y' x x' : Nat} (hs : w * n ≤ s) (h1 : x < w) (h2 : x' < w) (hne : y ≠ y' ∨ x ≠ x') :
    y * s + x * n + n ≤ y' * s + x' * n ∨ y' * s + x' * n + n ≤ y * s + x * n := by
  have a1 : x * n + n ≤ w * n := by
    have := Nat.mul_le_mul_right n (Nat.succ_le_of_lt h1); rw [Nat.succ_mul] at this; exact this
  have a2 : x' * n + n ≤ w * n := by
    have := Nat.mul_le_mul_right n (Nat.succ_le_of_lt h2); rw [Nat.succ_mul] at this; exact this
  by_cases hy : y = y'
  · subst hy
    have hx : x ≠ x' := by omega
    rcases Nat.lt_or_gt_of_ne hx with h | h
    · have := Nat.mul_le_mul_right n (Nat.succ_le_of_lt h); rw [Nat.succ_mul] at this; omega
    · have := Nat.mul_le_mul_right n (Nat.succ_le_of_lt h); rw [Nat.succ_mul] at this; omega
  · have := row_disj (c := 0) (r := s) (s := s) (by omega) hy
    omega

theorem cell_fit {n s w h y x : Nat} (hs : w * n ≤ s) (hy : y < h) (hx : x < w) : y * s + x * n + n ≤ s * h := by
  have a1 : x * n + n ≤ w * n := by
    have := Nat.mul_le_mul_right n (Nat.succ_le_of_lt hx); rw [Nat.succ_mul] at this; exact this
  have := row_le (s := s) hy
  omega

/-! ## Flips -/

theorem back_row {st : Nat} {H y : Nat} (hy : y < H) : (st : Int) * ((H : Int) - 1) + y * -(st : Int) = ((H - 1 - y) * st : Nat) := by
  obtain ⟨m, rfl⟩ : ∃ m, H = y + m + 1 := ⟨H - 1 - y, by omega⟩
  rw [show y + m + 1 - 1 - y = m by omega, show ((y + m + 1 : Nat) : Int) - 1 = y + m by omega, Int.mul_neg, Int.mul_add,
    Int.mul_comm (y : Int), Int.natCast_mul, Int.mul_comm (m : Int)]
  omega

/-- `flipVerticalGetframe`. -/
theorem flipVFrame_ok {al : Nat} (ha : 0 < al) {src : Frm} (hv : Valid al src) (junk : Junk) :
    ∃ g, flipVFrame al src junk = .ok g ∧ Valid al g ∧ g.fmt = src.fmt ∧ g.width = src.width ∧ g.height = src.height ∧
      g.props = src.props ∧
      ∀ p : Nat, (p : Int) < src.fmt.numPlanes → (img al g p).Same (flipV (img al src p)) := by
  refine make_ok (al := al) hv.geo src.props junk (fun dst => flipVPlane al src dst) (fun p => flipV (img al src p))
    (fun _ _ => rfl) (fun _ _ => rfl) ?_
  intro dst d1 d2 d3 p b hp hb
  obtain ⟨s, hs, es, hsz⟩ := hv.plane_ok hp
  have kw : dst.w p = src.w p := by unfold Frm.w; rw [d1, d2]
  have kh : dst.h p = src.h p := by unfold Frm.h; rw [d1, d3]
  have ks : dst.stride al p = src.stride al p := stride_congr al kw (by rw [d1])
  have m1 := mul32_le (a := src.w p) hv.row (Nat.div_le_self _ _)
  have ss := stride_ge ha src p
  obtain ⟨b', f0, f1, f2, f3⟩ := bitblt_ok b ((dst.stride al p : Int) * ((src.h p : Int) - 1)) (-(dst.stride al p : Int)) s
    0 (src.stride al p) (src.w p * bps src.fmt) (src.h p)
    (fun z => (src.h p - 1 - z) * src.stride al p) (fun z => z * src.stride al p)
    (fun z hz => by rw [ks]; exact back_row hz) (fun z _ => by simp)
    (fun z hz => by
      have := row_le (y := src.h p - 1 - z) (h := src.h p) (s := src.stride al p) (by omega)
      rw [hb, kh, ks]; omega)
    (fun z hz => by
      have := row_le (s := src.stride al p) hz
      rw [hsz]; omega)
    (fun z1 z2 h1 h2 hne => by
      have := row_disj (c := 0) (r := src.w p * bps src.fmt) (s := src.stride al p) (by omega)
        (show src.h p - 1 - z1 ≠ src.h p - 1 - z2 by omega)
      simpa using this)
  refine ⟨b', ?_, f1, ?_⟩
  · unfold flipVPlane
    rw [es, Res.bind_ok, kw, m1, Res.bind_ok]
    exact f0
  · intro u v hu hv'
    rw [kw] at hu
    rw [kh] at hv'
    show _ = (img al src p).px u (src.h p - 1 - v)
    rw [img_px hs]
    refine range_congr (fun k hk => ?_)
    have := f2 (src.h p - 1 - v) (u * bps src.fmt + k) (by omega) (row_lt hu hk)
    rw [show src.h p - 1 - (src.h p - 1 - v) = v by omega] at this
    rw [ks, Nat.add_assoc, this, Nat.add_assoc]

/-- `flipHorizontalGetframe`. -/
theorem flipHFrame_ok {al : Nat} (ha : 0 < al) (flip : Bool) {src : Frm} (hv : Valid al src) (junk : Junk) :
    ∃ g, flipHFrame al flip src junk = .ok g ∧ Valid al g ∧ g.fmt = src.fmt ∧ g.width = src.width ∧ g.height = src.height ∧
      g.props = src.props ∧
      ∀ p : Nat, (p : Int) < src.fmt.numPlanes → (img al g p).Same
        (if flip then turn180 (img al src p) else flipH (img al src p)) := by
  refine make_ok (al := al) hv.geo src.props junk (fun dst => flipHPlane al flip src dst)
    (fun p => if flip then turn180 (img al src p) else flipH (img al src p))
    (fun _ _ => by cases flip <;> rfl) (fun _ _ => by cases flip <;> rfl) ?_
  intro dst d1 d2 d3 p b hp hb
  obtain ⟨s, hs, es, hsz⟩ := hv.plane_ok hp
  have kw : dst.w p = src.w p := by unfold Frm.w; rw [d1, d2]
  have kh : dst.h p = src.h p := by unfold Frm.h; rw [d1, d3]
  have ks : dst.stride al p = src.stride al p := stride_congr al kw (by rw [d1])
  have ss := stride_ge ha src p
  let R : Nat → Nat := fun y => if flip then src.h p - 1 - y else y
  have hR : ∀ y, y < src.h p → R y < src.h p := by
    intro y hy; show (if flip then _ else _) < _; split <;> omega
  have hRR : ∀ y, y < src.h p → R (R y) = y := by
    intro y hy
    show (if flip then src.h p - 1 - (if flip then src.h p - 1 - y else y) else (if flip then src.h p - 1 - y else y)) = y
    cases flip
    · rfl
    · simp only [if_true]; omega
  have key := Adds.loop (N := b.size) (n := bps src.fmt) (s := s) (step := 1) (i := 0) (m := src.h p)
    (D := fun y x => R y * src.stride al p + (src.w p - 1 - x) * bps src.fmt)
    (C := fun y x => y * src.stride al p + x * bps src.fmt)
    (R := fun y y' x' => ∃ x, x < src.w p ∧ y' = y ∧ x' = x)
    (f := fun y => forN (fun x b => memcpy b ((if flip then (dst.stride al p : Int) * ((src.h p : Int) - 1) else 0) +
      y * (if flip then -(dst.stride al p : Int) else dst.stride al p) + ((src.w p : Int) - 1 - x) * (bps src.fmt : Int)) s
      (y * src.stride al p + x * bps src.fmt : Nat) (bps src.fmt)) (src.w p)) (fun y x => y < src.h p ∧ x < src.w p)
    (by
      intro y hy
      simp only [Nat.zero_add, Nat.mul_one]
      refine Adds.loop (step := 1) (i := 0) (m := src.w p) (R := fun x y' x' => y' = y ∧ x' = x) _ ?_
      intro x hx
      simp only [Nat.zero_add, Nat.mul_one]
      refine Adds.cell (G := fun y x => y < src.h p ∧ x < src.w p) ?_ ?_ ?_ ⟨hy, hx⟩ ?_ rfl
      · rintro y x ⟨hy, hx⟩
        have := cell_fit ss (hR y hy) (show src.w p - 1 - x < src.w p by omega)
        rw [hb, kh, ks]; exact this
      · rintro y x ⟨hy, hx⟩
        have := cell_fit ss hy hx
        rw [hsz]; exact this
      · rintro y x y' x' ⟨hy, hx⟩ ⟨hy', hx'⟩ hne
        refine cell_disj ss (by omega) (by omega) ?_
        rcases hne with h | h
        · left
          intro hh
          rw [← hRR y hy, ← hRR y' hy', hh] at h
          exact h rfl
        · right; omega
      · have ew : ((src.w p : Int) - 1 - x) * (bps src.fmt : Int) = ((src.w p - 1 - x) * bps src.fmt : Nat) := by
          rw [Int.natCast_mul]; congr 1; omega
        rw [ew]
        show _ = (((if flip then src.h p - 1 - y else y) * src.stride al p + (src.w p - 1 - x) * bps src.fmt : Nat) : Int)
        cases flip
        · rw [ks]; simp
        · simp only [if_true]
          rw [ks, back_row hy, Int.natCast_add])
  obtain ⟨b', f0, f1, f2⟩ := key.run (by
    rintro y x ⟨hy, hx⟩
    exact ⟨y, hy, x, hx, rfl, rfl⟩) b rfl
  refine ⟨b', ?_, f1, ?_⟩
  · unfold flipHPlane
    simp only
    rw [es, Res.bind_ok, if_pos hv.ok.bytes]
    exact f0
  · intro u v hu hv'
    rw [kw] at hu
    rw [kh] at hv'
    have hpx : (if flip then turn180 (img al src p) else flipH (img al src p)).px u v =
        (img al src p).px (src.w p - 1 - u) (R v) := by
      show _ = (img al src p).px (src.w p - 1 - u) (if flip then src.h p - 1 - v else v)
      cases flip <;> rfl
    rw [hpx, img_px hs]
    refine range_congr (fun k hk => ?_)
    have := f2 (R v) (src.w p - 1 - u) ⟨hR v hv', by omega⟩ k hk
    rw [hRR v hv', show src.w p - 1 - (src.w p - 1 - u) = u by omega] at this
    rw [ks]
    exact this

end VS.Pix
