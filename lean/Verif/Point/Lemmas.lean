import Verif.Point.Spec
import Verif.Pix.LemmasShuffle

/-! # Facts about samples, loops and new frames -/

namespace VS.Point
open VS VS.Format VS.Map VS.Map.Spec VS.Pix VS.Pix.Spec VS.Point.Spec

theorem leVal_lt (n : Nat) (f : Nat → Nat) : leVal n f < 256 ^ n := by
  induction n generalizing f with
  | zero => simp [leVal]
  | succ n ih =>
    unfold leVal
    have := ih (fun k => f (k + 1))
    rw [Nat.pow_succ]
    omega

theorem number_map (n : Nat) (f : Nat → Nat) : number ((List.range n).map f) = leVal n f := by
  induction n generalizing f with
  | zero => rfl
  | succ n ih =>
    rw [List.range_succ_eq_map, List.map_cons, List.map_map]
    unfold number leVal
    rw [← ih (fun k => f (k + 1))]
    rfl

theorem leVal_congr {n : Nat} {f g : Nat → Nat} (h : ∀ k, k < n → f k = g k) : leVal n f = leVal n g := by
  rw [← number_map, ← number_map, range_congr h]

/-- What is written is what is read. -/
theorem leVal_bytes (n v : Nat) : leVal n (fun k => leByte v k) = v % 256 ^ n := by
  induction n generalizing v with
  | zero => simp [leVal, Nat.mod_one]
  | succ n ih =>
    unfold leVal
    have : (fun k => leByte v (k + 1)) = (fun k => leByte (v / 256) k) := by
      funext k
      unfold leByte
      rw [Nat.pow_succ, Nat.div_div_eq_div_mul, Nat.mul_comm (256 ^ k)]
    rw [this, ih]
    unfold leByte
    dsimp only
    rw [Nat.pow_zero, Nat.div_one, Nat.mod_mod, Nat.pow_succ, Nat.mul_comm (256 ^ n), Nat.mod_mul]

theorem rd_ok {b : Buf} {n off : Nat} (h : off + n ≤ b.size) : rd b n off = .ok (leVal n (fun k => b.byte (off + k))) := by
  unfold rd
  rw [if_pos (by omega), Int.toNat_natCast]

theorem wr_ok {b : Buf} {n off : Nat} (v : Nat) (h : off + n ≤ b.size) :
    ∃ b', wr b n off v = .ok b' ∧ b'.size = b.size ∧ (∀ k, k < n → b'.byte (off + k) = leByte v k) ∧
      ∀ i, ¬ (off ≤ i ∧ i < off + n) → b'.byte i = b.byte i := by
  refine ⟨_, if_pos (by omega), rfl, ?_, ?_⟩
  · intro k hk
    show (if _ then _ else _) = _
    rw [if_pos (by omega)]
    congr 1
    omega
  · intro i hi
    show (if _ then _ else _) = _
    rw [if_neg (by omega)]

/-- The loops compute every sample of the plane. -/
theorem fill_ok {g : Nat → Nat → Res Nat} {G : Nat → Nat → Nat} {n stride w h : Nat} (hs : w * n ≤ stride)
    (hg : ∀ x y, x < w → y < h → g x y = .ok (G x y)) {dst : Buf} (hd : dst.size = stride * h) :
    ∃ b, fill g n stride w h dst = .ok b ∧ b.size = dst.size ∧
      ∀ x y k, x < w → y < h → k < n → b.byte (y * stride + x * n + k) = leByte (G x y) k := by
  have row : ∀ (y : Nat) (b0 : Buf), y < h → b0.size = stride * h → ∃ b, forN (fun x b => do
      let v ← g x y
      wr b n (y * stride + x * n : Nat) v) w b0 = .ok b ∧ b.size = stride * h ∧
      (∀ x k, x < w → k < n → b.byte (y * stride + x * n + k) = leByte (G x y) k) ∧
      ∀ x' y' k, x' < w → y' ≠ y → k < n → b.byte (y' * stride + x' * n + k) = b0.byte (y' * stride + x' * n + k) := by
    intro y b0 hy hb0
    have := forN_spec (fun x b => do
        let v ← g x y
        wr b n (y * stride + x * n : Nat) v)
      (fun m b => b.size = stride * h ∧
        (∀ x k, x < m → x < w → k < n → b.byte (y * stride + x * n + k) = leByte (G x y) k) ∧
        ∀ x' y' k, x' < w → y' ≠ y → k < n → b.byte (y' * stride + x' * n + k) = b0.byte (y' * stride + x' * n + k))
      w b0 ⟨hb0, fun x k hx => absurd hx (Nat.not_lt_zero _), fun _ _ _ _ _ _ => rfl⟩
      (by
        rintro m b hm ⟨e1, e2, e3⟩
        obtain ⟨b', f0, f1, f2, f3⟩ := wr_ok (b := b) (n := n) (off := y * stride + m * n) (G m y)
          (by rw [e1]; exact cell_fit hs hy hm)
        refine ⟨b', ?_, f1.trans e1, ?_, ?_⟩
        · show (g m y >>= fun v => wr b n (y * stride + m * n : Nat) v) = _
          rw [hg m y hm hy, Res.bind_ok, f0]
        · intro x k hx hxw hk
          rcases Nat.lt_succ_iff_lt_or_eq.1 hx with hx | rfl
          · rw [f3 _ (by have := cell_disj (y := y) (y' := y) (x := x) (x' := m) hs hxw hm (Or.inr (by omega)); omega)]
            exact e2 x k hx hxw hk
          · exact f2 k hk
        · intro x' y' k hx hy' hk
          rw [f3 _ (by have := cell_disj (y := y') (y' := y) (x := x') (x' := m) hs hx hm (Or.inl hy'); omega)]
          exact e3 x' y' k hx hy' hk)
    obtain ⟨b, e, h1, h2, h3⟩ := this
    exact ⟨b, e, h1, fun x k hx hk => h2 x k hx hx hk, h3⟩
  have := forN_spec (fun y b => forN (fun x b => do
      let v ← g x y
      wr b n (y * stride + x * n : Nat) v) w b)
    (fun m b => b.size = stride * h ∧
      ∀ x y k, y < m → x < w → y < h → k < n → b.byte (y * stride + x * n + k) = leByte (G x y) k)
    h dst ⟨hd, fun x y k hy => absurd hy (Nat.not_lt_zero _)⟩
    (by
      rintro m b hm ⟨e1, e2⟩
      obtain ⟨b', f0, f1, f2, f3⟩ := row m b hm e1
      refine ⟨b', f0, f1, ?_⟩
      intro x y k hy hx hyh hk
      rcases Nat.lt_succ_iff_lt_or_eq.1 hy with hy | rfl
      · rw [f3 x y k hx (by omega) hk]
        exact e2 x y k hy hx hyh hk
      · exact f2 x k hx hk)
  obtain ⟨b, e, h1, h2⟩ := this
  exact ⟨b, e, h1.trans hd.symm, fun x y k hx hy hk => h2 x y k hy hx hy hk⟩

/-! ## Samples of frames -/

theorem smp_eq {al : Nat} {f : Frm} {p : Nat} {b : Buf} (h : f.planes[p]? = some b) (x y : Nat) :
    smp al f p x y = leVal (bps f.fmt) (fun k => b.byte (y * f.stride al p + x * bps f.fmt + k)) := by
  unfold smp
  rw [img_px h, number_map]

theorem smp_lt {al : Nat} (f : Frm) (p x y : Nat) : smp al f p x y < 256 ^ bps f.fmt := by
  show number ((List.range (bps f.fmt)).map _) < _
  rw [number_map]
  exact leVal_lt _ _

/-- Reading a sample of a frame. -/
theorem rd_smp {al : Nat} (ha : 0 < al) {f : Frm} (hv : Valid al f) {p : Nat} {b : Buf} (h : f.planes[p]? = some b) {x y : Nat}
    (hx : x < f.w p) (hy : y < f.h p) : rd b (bps f.fmt) (y * f.stride al p + x * bps f.fmt : Nat) = .ok (smp al f p x y) := by
  rw [smp_eq h, rd_ok]
  rw [hv.size p b h]
  exact cell_fit (stride_ge ha f p) hy hx

/-- Pictures that are the same have the same samples. -/
theorem same_smp {al : Nat} {f g : Frm} {p q : Nat} (h : (img al f p).Same (img al g q)) {x y : Nat} (hx : x < f.w p)
    (hy : y < f.h p) : smp al f p x y = smp al g q x y := by
  unfold smp
  rw [h.2.2 x y hx hy]

/-! ## New frames -/

theorem takeOpt_ok {al : Nat} {dst : Frm} {junk : Junk} (l : List (Option (Frm × Int))) (i : Nat)
    (h : ∀ (j : Nat) f p, l[j]? = some (some (f, p)) → Takes al dst.fmt dst.width dst.height (i + j) f p) :
    ∃ bs, takePlanesOpt al dst junk i l = .ok bs ∧ bs.length = l.length ∧
      (∀ (j : Nat), l[j]? = some none → bs[j]? = some ⟨dst.stride al (i + j) * dst.h (i + j), junk (i + j)⟩) ∧
      ∀ (j : Nat) f p, l[j]? = some (some (f, p)) → ∃ b, bs[j]? = some b ∧ f.planes[p.toNat]? = some b := by
  induction l generalizing i with
  | nil => exact ⟨[], rfl, rfl, by simp, by simp⟩
  | cons a t ih =>
    obtain ⟨bs, e, hl, hn, hb⟩ := ih (i + 1) (fun j f p hj => by
      rw [show i + 1 + j = i + (j + 1) by omega]
      exact h (j + 1) f p (by rw [List.getElem?_cons_succ]; exact hj))
    have hn' : ∀ (c : Buf) (j : Nat), t[j]? = some none →
        (c :: bs)[j + 1]? = some ⟨dst.stride al (i + (j + 1)) * dst.h (i + (j + 1)), junk (i + (j + 1))⟩ := by
      intro c j hj
      rw [List.getElem?_cons_succ, hn j hj, show i + 1 + j = i + (j + 1) by omega]
    rcases a with _ | ⟨f, p⟩
    · refine ⟨(⟨dst.stride al i * dst.h i, junk i⟩ : Buf) :: bs, ?_, by simp [hl], ?_, ?_⟩
      · unfold takePlanesOpt
        rw [e, Res.bind_ok]
      · intro j hj
        rcases j with _ | j
        · rfl
        · rw [List.getElem?_cons_succ] at hj
          exact hn' _ j hj
      · intro j f' p' hj
        rcases j with _ | j
        · exact absurd hj (by simp)
        · rw [List.getElem?_cons_succ] at hj ⊢
          exact hb j f' p' hj
    · have tk := h 0 f p rfl
      rw [Nat.add_zero] at tk
      have t1 := tk.low
      have t2 := tk.high
      obtain ⟨b, hb1, hb2, _⟩ := tk.valid.plane_ok (p := p.toNat) (by omega)
      refine ⟨b :: bs, ?_, by simp [hl], ?_, ?_⟩
      · unfold takePlanesOpt takePlane
        rw [if_neg (by omega), if_neg, hb2, Res.bind_ok, e, Res.bind_ok]
        rw [tk.wid, tk.hei]
        unfold Frm.w Frm.h
        omega
      · intro j hj
        rcases j with _ | j
        · exact absurd hj (by simp)
        · rw [List.getElem?_cons_succ] at hj
          exact hn' _ j hj
      · intro j f' p' hj
        rcases j with _ | j
        · rw [List.getElem?_cons_zero, Option.some.injEq, Option.some.injEq, Prod.mk.injEq] at hj
          obtain ⟨rfl, rfl⟩ := hj
          exact ⟨b, rfl, hb1⟩
        · rw [List.getElem?_cons_succ] at hj ⊢
          exact hb j f' p' hj

/-- A frame with some planes of other frames and new ones that are filled by `f` with the samples `G`. -/
theorem makeOpt_ok {al : Nat} {fmt : VFmt} {w h : Nat} (geo : Geo fmt w h) (props : Dict) (junk : Junk)
    (srcs : List (Option (Frm × Int))) (f : Nat → Buf → Res Buf) (G : Nat → Nat → Nat → Nat)
    (hl : fmt.numPlanes ≤ (srcs.length : Int))
    (ht : ∀ (j : Nat) s p, (j : Int) < fmt.numPlanes → srcs[j]? = some (some (s, p)) → Takes al fmt w h j s p ∧ ∀ b, f j b = .ok b)
    (hf : ∀ (p : Nat) b, (p : Int) < fmt.numPlanes → srcs[p]? = some none →
      b.size = Frame.strideOf al (w / 2 ^ ssw fmt p) (bps fmt) * (h / 2 ^ ssh fmt p) →
      ∃ b', f p b = .ok b' ∧ b'.size = b.size ∧ ∀ x y k, x < w / 2 ^ ssw fmt p → y < h / 2 ^ ssh fmt p → k < bps fmt →
          b'.byte (y * Frame.strideOf al (w / 2 ^ ssw fmt p) (bps fmt) + x * bps fmt + k) = leByte (G p x y) k) :
    ∃ g, (newVideoFrameOpt al fmt w h srcs props junk >>= fun dst => dst.build f) = .ok g ∧ Valid al g ∧ g.fmt = fmt ∧
      g.width = w ∧ g.height = h ∧ g.props = props ∧
      (∀ (p : Nat), (p : Int) < fmt.numPlanes → srcs[p]? = some none → ∀ x y, x < g.w p → y < g.h p →
        smp al g p x y = G p x y % 256 ^ bps fmt) ∧
      ∀ (j : Nat) s p, (j : Int) < fmt.numPlanes → srcs[j]? = some (some (s, p)) → (img al g j).Same (img al s p.toNat) := by
  have hn : ¬ ((w : Int) ≤ 0 ∨ (h : Int) ≤ 0) := by have := geo.width; have := geo.height; omega
  have hnp : fmt.numPlanes = 1 ∨ fmt.numPlanes = 3 := (fmtOk geo.fmt geo.known).planes
  unfold newVideoFrameOpt
  rw [if_neg hn]
  simp only [Int.toNat_natCast]
  have htk : ∀ (j : Nat), (srcs.take fmt.numPlanes.toNat)[j]? = if (j : Int) < fmt.numPlanes then srcs[j]? else none := by
    intro j
    rw [List.getElem?_take]
    by_cases c : (j : Int) < fmt.numPlanes
    · rw [if_pos c, if_pos (by omega)]
    · rw [if_neg c, if_neg (by omega)]
  obtain ⟨bs, e, l1, l2, l3⟩ := takeOpt_ok (al := al) (dst := ⟨fmt, w, h, [], props⟩) (junk := junk)
    (srcs.take fmt.numPlanes.toNat) 0 (by
      intro j s p hj
      rw [htk] at hj
      split at hj
      · rename_i c
        rw [Nat.zero_add]
        exact (ht j s p c hj).1
      · exact absurd hj (by simp))
  rw [e, Res.bind_ok, Res.bind_ok]
  have hbl : (bs.length : Int) = fmt.numPlanes := by
    rw [l1, List.length_take]
    omega
  have hsrc : ∀ p : Nat, (p : Int) < fmt.numPlanes → ∃ s, srcs[p]? = some s := by
    intro p hp
    exact ⟨srcs[p]'(by omega), List.getElem?_eq_getElem _⟩
  let S : Nat → Nat := fun p => Frame.strideOf al (w / 2 ^ ssw fmt p) (bps fmt)
  have key := mapPlanes_ok f (fun p b => (p : Int) < fmt.numPlanes ∧ b.size = S p * (h / 2 ^ ssh fmt p) ∧
      (srcs[p]? = some none → ∀ x y k, x < w / 2 ^ ssw fmt p → y < h / 2 ^ ssh fmt p → k < bps fmt →
        b.byte (y * S p + x * bps fmt + k) = leByte (G p x y) k) ∧
      (∀ s q, srcs[p]? = some (some (s, q)) → s.planes[q.toNat]? = some b)) 0 bs
    (by
      intro p b hb
      rw [Nat.zero_add]
      have hp : (p : Int) < fmt.numPlanes := by
        have := (List.getElem?_eq_some_iff.1 hb).1
        omega
      obtain ⟨s, hs⟩ := hsrc p hp
      rcases s with _ | ⟨s, q⟩
      · have := l2 p (by rw [htk, if_pos hp, hs])
        rw [Nat.zero_add, hb, Option.some.injEq] at this
        obtain ⟨b', f1, f2, f3⟩ := hf p b hp hs (by rw [this]; rfl)
        refine ⟨b', f1, hp, ?_, fun _ => f3, ?_⟩
        · rw [f2, this]; rfl
        · intro s q h
          rw [hs] at h
          exact absurd h (by simp)
      · obtain ⟨tk, fk⟩ := ht p s q hp hs
        obtain ⟨b', e1, e2⟩ := l3 p s q (by rw [htk, if_pos hp, hs])
        rw [hb, Option.some.injEq] at e1
        subst e1
        refine ⟨b, fk b, hp, ?_, ?_, ?_⟩
        · rw [tk.valid.size _ _ e2]
          show Frame.strideOf al (s.w q.toNat) (bps s.fmt) * s.h q.toNat = _
          rw [tk.wid, tk.bytes, tk.hei]
        · intro h
          rw [hs] at h
          exact absurd h (by simp)
        · intro s' q' h
          rw [hs, Option.some.injEq, Option.some.injEq, Prod.mk.injEq] at h
          obtain ⟨rfl, rfl⟩ := h
          exact e2)
  obtain ⟨l, e', hl', hP⟩ := key
  refine ⟨⟨fmt, w, h, l, props⟩, ?_, ?_, rfl, rfl, rfl, rfl, ?_, ?_⟩
  · show Frm.build ⟨fmt, w, h, bs, props⟩ f = _
    unfold Frm.build
    rw [e']
    rfl
  · refine Geo.valid geo ?_ ?_
    · show (l.length : Int) = fmt.numPlanes
      rw [hl']; exact hbl
    · intro p b hb
      have := (hP p b hb).2.1
      rw [Nat.zero_add] at this
      exact this
  · intro p hp hs x y hx hy
    obtain ⟨b, hb⟩ : ∃ b, l[p]? = some b := ⟨l[p]'(by omega), List.getElem?_eq_getElem _⟩
    have := (hP p b hb).2.2.1
    rw [Nat.zero_add] at this
    rw [smp_eq (f := ⟨fmt, w, h, l, props⟩) hb, ← leVal_bytes]
    exact leVal_congr (fun k hk => this hs x y k hx hy hk)
  · intro p s q hp hs
    obtain ⟨b, hb⟩ : ∃ b, l[p]? = some b := ⟨l[p]'(by omega), List.getElem?_eq_getElem _⟩
    have tk := (ht p s q hp hs).1
    have := (hP p b hb).2.2.2
    rw [Nat.zero_add] at this
    refine ⟨tk.wid.symm, tk.hei.symm, fun x y _ _ => ?_⟩
    rw [img_px (f := ⟨fmt, w, h, l, props⟩) hb, img_px (this s q hs)]
    have es : Frm.stride al ⟨fmt, w, h, l, props⟩ p = s.stride al q.toNat := by
      unfold Frm.stride
      rw [tk.wid, tk.bytes]
      rfl
    rw [es, ← tk.bytes]

/-- A plane of a frame of the same format and size. -/
theorem takes_self {al : Nat} {f : Frm} (hv : Valid al f) {p : Nat} (hp : (p : Int) < f.fmt.numPlanes) {fmt : VFmt} {w h : Nat}
    (e1 : f.fmt = fmt) (e2 : f.width = w) (e3 : f.height = h) : Takes al fmt w h p f p := by
  subst e1 e2 e3
  exact ⟨hv, by omega, hp, rfl, rfl, rfl⟩

end VS.Point
