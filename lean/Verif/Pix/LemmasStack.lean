import Verif.Pix.LemmasFlip

/-! # StackVertical and StackHorizontal on one frame -/

namespace VS.Pix
open VS VS.Format VS.Map VS.Map.Spec VS.Pix.Spec

/-- A valid format is given by five of its fields. -/
theorem fmt_eq {a b : VFmt} (ha : isValidVideoStruct a = true) (ka : a.colorFamily ≠ cfUndefined)
    (hb : isValidVideoStruct b = true) (h : isSameVideoFormat a b = true) : a = b := by
  unfold isSameVideoFormat at h
  obtain ⟨h1, h2, h3, h4, h5⟩ := of_decide_eq_true h
  have kb : b.colorFamily ≠ cfUndefined := h1 ▸ ka
  have oa := (fmtOk ha ka).bytes
  have ob := (fmtOk hb kb).bytes
  unfold isValidVideoStruct at ha hb
  rw [if_neg ka] at ha
  rw [if_neg kb] at hb
  have va : isValidVideoFormat a.colorFamily a.sampleType a.bitsPerSample a.subSamplingW a.subSamplingH = true := by
    cases e : isValidVideoFormat a.colorFamily a.sampleType a.bitsPerSample a.subSamplingW a.subSamplingH with
    | true => rfl
    | false => rw [e] at ha; exact absurd ha (by simp)
  have hbits : 8 ≤ a.bitsPerSample := by
    have hv := va
    unfold isValidVideoFormat at hv
    rw [if_neg (c := a.colorFamily = cfUndefined ∧ _) (by intro hh; exact ka hh.1)] at hv
    by_cases hb : a.bitsPerSample < 8 ∨ a.bitsPerSample > 32
    · rw [if_pos hb] at hv
      simp at hv
    · omega
  have vb := va
  rw [h1, h2, h3, h4, h5] at vb
  rw [va] at ha
  rw [vb, ← h1, ← h3] at hb
  simp only [Bool.not_true, Bool.false_eq_true, if_false] at ha hb
  generalize (if a.colorFamily = cfYUV ∨ a.colorFamily = cfRGB then (3 : Int) else 1) = c at ha hb
  have hn : a.numPlanes = b.numPlanes := by
    by_cases e1 : a.numPlanes ≠ c
    · rw [if_pos e1] at ha; exact absurd ha (by simp)
    by_cases e2 : b.numPlanes ≠ c
    · rw [if_pos e2] at hb; exact absurd hb (by simp)
    omega
  have hbp : a.bytesPerSample = b.bytesPerSample := by
    by_cases e1 : a.numPlanes ≠ c
    · rw [if_pos e1] at ha; exact absurd ha (by simp)
    by_cases e2 : b.numPlanes ≠ c
    · rw [if_pos e2] at hb; exact absurd hb (by simp)
    rw [if_neg e1] at ha
    rw [if_neg e2] at hb
    split at ha
    · exact absurd ha (by simp)
    split at ha
    · exact absurd ha (by simp)
    split at ha
    · exact absurd ha (by simp)
    split at hb
    · exact absurd hb (by simp)
    split at hb
    · exact absurd hb (by simp)
    split at hb
    · exact absurd hb (by simp)
    omega
  cases a
  cases b
  simp_all

/-- The picture in the upper left corner of a block of memory. -/
def Shows (b : Buf) (st n : Nat) (i : Img) : Prop :=
  ∀ x y, x < i.w → y < i.h → ((List.range n).map fun k => b.byte (y * st + x * n + k)) = i.px x y

theorem aboveAll_h (a : Img) (l : List Img) : a.h ≤ (aboveAll a l).h ∧ (aboveAll a l).w = a.w := by
  induction l generalizing a with
  | nil => exact ⟨Nat.le_refl _, rfl⟩
  | cons i t ih =>
    have := ih (above a i)
    exact ⟨Nat.le_trans (Nat.le_add_right _ _) this.1, this.2⟩

theorem besideAll_w (a : Img) (l : List Img) : a.w ≤ (besideAll a l).w ∧ (besideAll a l).h = a.h := by
  induction l generalizing a with
  | nil => exact ⟨Nat.le_refl _, rfl⟩
  | cons i t ih =>
    have := ih (beside a i)
    exact ⟨Nat.le_trans (Nat.le_add_right _ _) this.1, this.2⟩

/-- The frames below each other. -/
theorem stackV_ok {al : Nat} (ha : 0 < al) {dst : Frm} {p : Nat} (hp : (p : Int) < dst.fmt.numPlanes) (l : List Frm) (acc : Img)
    (hl : ∀ f ∈ l, Valid al f ∧ f.fmt = dst.fmt ∧ f.w p = dst.w p) (hw : acc.w = dst.w p) {b : Buf}
    (hb : b.size = dst.stride al p * (aboveAll acc (l.map (img al · p))).h)
    (hs : Shows b (dst.stride al p) (bps dst.fmt) acc) :
    ∃ r, stackLoop al true dst p l (b, dst.stride al p * acc.h) = .ok r ∧ r.1.size = b.size ∧
      Shows r.1 (dst.stride al p) (bps dst.fmt) (aboveAll acc (l.map (img al · p))) := by
  induction l generalizing acc b with
  | nil => exact ⟨_, rfl, rfl, hs⟩
  | cons f t ih =>
    obtain ⟨v, ef, ew⟩ := hl f (List.mem_cons_self ..)
    obtain ⟨m, hm, em, hmz⟩ := v.plane_ok (show (p : Int) < f.fmt.numPlanes by rw [ef]; exact hp)
    have ks : f.stride al p = dst.stride al p := stride_congr al ew (by rw [ef])
    have sg := stride_ge ha f p
    have hle := (aboveAll_h (above acc (img al f p)) (t.map (img al · p))).1
    rw [ks] at hmz sg
    rw [ef] at sg
    have hle' : acc.h + f.h p ≤ (aboveAll (above acc (img al f p)) (t.map (img al · p))).h := hle
    have hsz : dst.stride al p * acc.h + dst.stride al p * f.h p ≤ b.size := by
      rw [hb, ← Nat.mul_add]
      exact Nat.mul_le_mul_left _ hle'
    obtain ⟨b', q0, q1, q2, q3⟩ := memcpy_ok b (dst.stride al p * acc.h) m 0 (dst.stride al p * f.h p) hsz (by omega)
    have hs' : Shows b' (dst.stride al p) (bps dst.fmt) (above acc (img al f p)) := by
      intro x y hx hy
      have hx' : x < dst.w p := by rw [← hw]; exact hx
      have hy' : y < acc.h + f.h p := hy
      have hrow : ∀ k, k < bps dst.fmt → x * bps dst.fmt + k < dst.stride al p := by
        intro k hk
        have := row_lt (show x < f.w p by rw [ew]; exact hx') hk
        omega
      show _ = if y < acc.h then acc.px x y else (img al f p).px x (y - acc.h)
      by_cases hyl : y < acc.h
      · rw [if_pos hyl, ← hs x y hx hyl]
        refine range_congr (fun k hk => ?_)
        have := row_le (s := dst.stride al p) hyl
        have := hrow k hk
        rw [q3 _ (by omega)]
      · rw [if_neg hyl, img_px hm, ef, ks]
        refine range_congr (fun k hk => ?_)
        have h1 := hrow k hk
        have h2 := row_le (y := y - acc.h) (h := f.h p) (s := dst.stride al p) (by omega)
        have h3 : y * dst.stride al p = dst.stride al p * acc.h + (y - acc.h) * dst.stride al p := by
          rw [Nat.mul_comm (dst.stride al p) acc.h, ← Nat.add_mul]; congr 1; omega
        have := q2 ((y - acc.h) * dst.stride al p + x * bps dst.fmt + k) (by omega)
        rw [Nat.zero_add] at this
        rw [← this, h3]
        congr 1
        omega
    obtain ⟨r, e, r1, r2⟩ := ih (above acc (img al f p)) (fun g hg => hl g (List.mem_cons_of_mem _ hg)) hw
      (b := b') (by rw [q1]; exact hb) hs'
    refine ⟨r, ?_, r1.trans q1, r2⟩
    show (stackOne al true dst p f (b, dst.stride al p * acc.h) >>= fun s => stackLoop al true dst p t s) = _
    have : stackOne al true dst p f (b, dst.stride al p * acc.h) = .ok (b', dst.stride al p * (acc.h + f.h p)) := by
      unfold stackOne
      rw [em, Res.bind_ok, if_pos rfl]
      simp only
      have q0' : memcpy b ((dst.stride al p * acc.h : Nat) : Int) m 0 (dst.stride al p * f.h p) = .ok b' := q0
      rw [q0', Res.bind_ok, Nat.mul_add]
    rw [this, Res.bind_ok]
    exact e

/-- The frames side by side. -/
theorem stackH_ok {al : Nat} (ha : 0 < al) {dst : Frm} {p : Nat} (hp : (p : Int) < dst.fmt.numPlanes) (l : List Frm) (acc : Img)
    (hl : ∀ f ∈ l, Valid al f ∧ f.fmt = dst.fmt ∧ f.h p = dst.h p) (hh : acc.h = dst.h p)
    (hw : (besideAll acc (l.map (img al · p))).w = dst.w p) {b : Buf} (hb : b.size = dst.stride al p * dst.h p)
    (hs : Shows b (dst.stride al p) (bps dst.fmt) acc) :
    ∃ r, stackLoop al false dst p l (b, acc.w * bps dst.fmt) = .ok r ∧ r.1.size = b.size ∧
      Shows r.1 (dst.stride al p) (bps dst.fmt) (besideAll acc (l.map (img al · p))) := by
  induction l generalizing acc b with
  | nil => exact ⟨_, rfl, rfl, hs⟩
  | cons f t ih =>
    obtain ⟨v, ef, eh⟩ := hl f (List.mem_cons_self ..)
    obtain ⟨m, hm, em, hmz⟩ := v.plane_ok (show (p : Int) < f.fmt.numPlanes by rw [ef]; exact hp)
    have sg := stride_ge ha f p
    have sd := stride_ge ha dst p
    have hle := (besideAll_w (beside acc (img al f p)) (t.map (img al · p))).1
    have hle' : acc.w + f.w p ≤ dst.w p := by rw [← hw]; exact hle
    have hfit : acc.w * bps dst.fmt + f.w p * bps dst.fmt ≤ dst.stride al p := by
      rw [← Nat.add_mul]
      exact Nat.le_trans (Nat.mul_le_mul_right _ hle') sd
    rw [ef] at sg
    have m1 := mul32_le (a := f.w p) (w := f.width) (b := bps dst.fmt) (by have := v.row; rw [ef] at this; exact this)
      (Nat.div_le_self _ _)
    obtain ⟨b', q0, q1, q2, q3⟩ := bitblt_ok b (acc.w * bps dst.fmt : Nat) (dst.stride al p) m 0 (f.stride al p)
      (f.w p * bps dst.fmt) (f.h p) (fun z => z * dst.stride al p + acc.w * bps dst.fmt) (fun z => z * f.stride al p)
      (fun z _ => by simp only [Int.natCast_add, Int.natCast_mul]; omega) (fun z _ => by simp)
      (fun z hz => by
        have := row_le (y := z) (h := dst.h p) (s := dst.stride al p) (by omega)
        rw [hb]; omega)
      (fun z hz => by
        have := row_le (s := f.stride al p) hz
        rw [hmz]; omega)
      (fun z1 z2 _ _ hne => row_disj hfit hne)
    have hs' : Shows b' (dst.stride al p) (bps dst.fmt) (beside acc (img al f p)) := by
      intro x y hx hy
      have hy' : y < dst.h p := by rw [← hh]; exact hy
      have hx' : x < acc.w + f.w p := hx
      show _ = if x < acc.w then acc.px x y else (img al f p).px (x - acc.w) y
      by_cases hxl : x < acc.w
      · rw [if_pos hxl, ← hs x y hxl hy]
        refine range_congr (fun k hk => ?_)
        have h1 := row_lt hxl hk
        refine q3 _ (fun z hz => ?_)
        rintro ⟨h2, h3⟩
        have ez : y = z := (row_unique (y := y) (z := z) (s := dst.stride al p) (i := x * bps dst.fmt + k)
          (j := y * dst.stride al p + x * bps dst.fmt + k - z * dst.stride al p) (by omega) (by omega) (by omega)).1
        subst ez
        omega
      · rw [if_neg hxl, img_px hm, ef]
        refine range_congr (fun k hk => ?_)
        have h1 := row_lt (show x - acc.w < f.w p by omega) hk
        have := q2 y ((x - acc.w) * bps dst.fmt + k) (by omega) h1
        have h3 : x * bps dst.fmt = acc.w * bps dst.fmt + (x - acc.w) * bps dst.fmt := by
          rw [← Nat.add_mul]; congr 1; omega
        rw [h3, Nat.add_assoc (y * f.stride al p), ← this]
        congr 1
        omega
    obtain ⟨r, e, r1, r2⟩ := ih (beside acc (img al f p)) (fun g hg => hl g (List.mem_cons_of_mem _ hg)) hh hw
      (b := b') (by rw [q1]; exact hb) hs'
    refine ⟨r, ?_, r1.trans q1, r2⟩
    show (stackOne al false dst p f (b, acc.w * bps dst.fmt) >>= fun s => stackLoop al false dst p t s) = _
    have : stackOne al false dst p f (b, acc.w * bps dst.fmt) = .ok (b', (acc.w + f.w p) * bps dst.fmt) := by
      unfold stackOne
      rw [em, Res.bind_ok, if_neg (by simp), m1, Res.bind_ok]
      simp only
      rw [q0, Res.bind_ok, Nat.add_mul]
    rw [this, Res.bind_ok]
    exact e

theorem above_empty (i : Img) (f : Nat → Nat → List Nat) : above ⟨i.w, 0, f⟩ i = i := by
  unfold above
  simp

theorem beside_empty (i : Img) (f : Nat → Nat → List Nat) : beside ⟨0, i.h, f⟩ i = i := by
  unfold beside
  simp

theorem aboveAll_sum {al : Nat} {fmt : VFmt} (p : Nat) (l : List Frm) (acc : Img) {H : Nat} (hd : 2 ^ ssh fmt p ∣ H)
    (hH : acc.h = H / 2 ^ ssh fmt p) (hl : ∀ f ∈ l, Valid al f ∧ f.fmt = fmt) :
    (aboveAll acc (l.map (img al · p))).h = (H + sumH l) / 2 ^ ssh fmt p := by
  induction l generalizing acc H with
  | nil => exact hH
  | cons f t ih =>
    obtain ⟨v, ef⟩ := hl f (List.mem_cons_self ..)
    have := ih (above acc (img al f p)) (H := H + f.height)
      (Nat.dvd_add hd (by have := dvd_ssh v.modH p; rw [ef] at this; exact this))
      (by
        show acc.h + f.height / 2 ^ ssh f.fmt p = _
        rw [hH, add_div hd, ef])
      (fun g hg => hl g (List.mem_cons_of_mem _ hg))
    show (aboveAll (above acc (img al f p)) (t.map (img al · p))).h = _
    rw [this]
    unfold sumH
    rw [List.map_cons, List.sum_cons, Nat.add_assoc]

theorem besideAll_sum {al : Nat} {fmt : VFmt} (p : Nat) (l : List Frm) (acc : Img) {W : Nat} (hd : 2 ^ ssw fmt p ∣ W)
    (hW : acc.w = W / 2 ^ ssw fmt p) (hl : ∀ f ∈ l, Valid al f ∧ f.fmt = fmt) :
    (besideAll acc (l.map (img al · p))).w = (W + sumW l) / 2 ^ ssw fmt p := by
  induction l generalizing acc W with
  | nil => exact hW
  | cons f t ih =>
    obtain ⟨v, ef⟩ := hl f (List.mem_cons_self ..)
    have := ih (beside acc (img al f p)) (W := W + f.width)
      (Nat.dvd_add hd (by have := dvd_ssw v.modW p; rw [ef] at this; exact this))
      (by
        show acc.w + f.width / 2 ^ ssw f.fmt p = _
        rw [hW, add_div hd, ef])
      (fun g hg => hl g (List.mem_cons_of_mem _ hg))
    show (besideAll (beside acc (img al f p)) (t.map (img al · p))).w = _
    rw [this]
    unfold sumW
    rw [List.map_cons, List.sum_cons, Nat.add_assoc]

theorem dvd_sumH {al : Nat} {fmt : VFmt} (l : List Frm) (hl : ∀ f ∈ l, Valid al f ∧ f.fmt = fmt) :
    2 ^ fmt.subSamplingH.toNat ∣ sumH l := by
  induction l with
  | nil => exact Nat.dvd_zero _
  | cons f t ih =>
    unfold sumH
    rw [List.map_cons, List.sum_cons]
    have := hl f (List.mem_cons_self ..)
    exact Nat.dvd_add (this.2 ▸ this.1.modH) (ih (fun g hg => hl g (List.mem_cons_of_mem _ hg)))

theorem dvd_sumW {al : Nat} {fmt : VFmt} (l : List Frm) (hl : ∀ f ∈ l, Valid al f ∧ f.fmt = fmt) :
    2 ^ fmt.subSamplingW.toNat ∣ sumW l := by
  induction l with
  | nil => exact Nat.dvd_zero _
  | cons f t ih =>
    unfold sumW
    rw [List.map_cons, List.sum_cons]
    have := hl f (List.mem_cons_self ..)
    exact Nat.dvd_add (this.2 ▸ this.1.modW) (ih (fun g hg => hl g (List.mem_cons_of_mem _ hg)))

/-- `stackGetframe` of StackVertical. -/
theorem stackFrameV_ok {al : Nat} (ha : 0 < al) {f : Frm} {t : List Frm} {vi : VInfo} (hv : Valid al f)
    (hl : ∀ g ∈ t, Valid al g ∧ g.fmt = f.fmt ∧ g.width = f.width) (hf : vi.format = f.fmt) (hw : vi.width = f.width)
    (hh : vi.height = (f.height + sumH t : Nat)) (hm : vi.height ≤ INT_MAX) (junk : Junk) :
    ∃ g, stackFrame al true vi (f :: t) junk = .ok g ∧ Valid al g ∧ g.fmt = f.fmt ∧ g.width = f.width ∧
      g.height = f.height + sumH t ∧ g.props = f.props ∧
      ∀ p : Nat, (p : Int) < f.fmt.numPlanes → (img al g p).Same (aboveAll (img al f p) (t.map (img al · p))) := by
  unfold stackFrame
  simp only
  rw [hf, hw, hh]
  have hl' : ∀ g ∈ t, Valid al g ∧ g.fmt = f.fmt := fun g hg => ⟨(hl g hg).1, (hl g hg).2.1⟩
  have geo : Geo f.fmt f.width (f.height + sumH t) :=
    ⟨hv.fmt, hv.known, hv.width, by have := hv.height; omega, hv.modW, Nat.dvd_add hv.modH (dvd_sumH t hl'), hv.row,
      by rw [← hh]; exact hm⟩
  refine make_ok (al := al) geo f.props junk (fun dst p b => do
      let r ← stackLoop al true dst p (f :: t) (b, 0)
      .ok r.1) (fun p => aboveAll (img al f p) (t.map (img al · p)))
    (fun p _ => (aboveAll_h _ _).2) (fun p _ => aboveAll_sum p t _ (dvd_ssh hv.modH p) rfl hl') ?_
  intro dst d1 d2 d3 p b hp hb
  have kw : ∀ g ∈ f :: t, Valid al g ∧ g.fmt = dst.fmt ∧ g.w p = dst.w p := by
    intro g hg
    rcases List.mem_cons.1 hg with rfl | hg
    · exact ⟨hv, d1.symm, by unfold Frm.w; rw [d1, d2]⟩
    · obtain ⟨h1, h2, h3⟩ := hl g hg
      exact ⟨h1, h2.trans d1.symm, by unfold Frm.w; rw [d1, d2, h2, h3]⟩
  have hfold : aboveAll ⟨(img al f p).w, 0, fun _ _ => []⟩ ((f :: t).map (img al · p)) =
      aboveAll (img al f p) (t.map (img al · p)) := by
    show aboveAll (above _ (img al f p)) _ = _
    rw [above_empty]
  obtain ⟨r, e, r1, r2⟩ := stackV_ok ha (p := p) (d1 ▸ hp) (f :: t) ⟨(img al f p).w, 0, fun _ _ => []⟩ kw
    (kw f (List.mem_cons_self ..)).2.2 (b := b) (by
      rw [hfold, hb]
      congr 1
      rw [aboveAll_sum p t _ (dvd_ssh hv.modH p) rfl hl']
      unfold Frm.h
      rw [d1, d3]) (fun x y _ hy => absurd hy (Nat.not_lt_zero _))
  rw [hfold] at r2
  refine ⟨r.1, ?_, r1, ?_⟩
  · have e' : stackLoop al true dst p (f :: t) (b, 0) = .ok r := e
    rw [e', Res.bind_ok]
  · intro x y hx hy
    have := r2 x y (by
      rw [(aboveAll_h _ _).2]
      show x < f.w p
      rw [(kw f (List.mem_cons_self ..)).2.2]; exact hx) (by
      rw [aboveAll_sum p t _ (dvd_ssh hv.modH p) rfl hl']
      unfold Frm.h at hy
      rw [d1, d3] at hy
      exact hy)
    rw [d1] at this
    exact this

/-- `stackGetframe` of StackHorizontal. -/
theorem stackFrameH_ok {al : Nat} (ha : 0 < al) {f : Frm} {t : List Frm} {vi : VInfo} (hv : Valid al f)
    (hl : ∀ g ∈ t, Valid al g ∧ g.fmt = f.fmt ∧ g.height = f.height) (hf : vi.format = f.fmt) (hh : vi.height = f.height)
    (hw : vi.width = (f.width + sumW t : Nat)) (hm : vi.width * bps f.fmt ≤ INT_MAX) (junk : Junk) :
    ∃ g, stackFrame al false vi (f :: t) junk = .ok g ∧ Valid al g ∧ g.fmt = f.fmt ∧ g.height = f.height ∧
      g.width = f.width + sumW t ∧ g.props = f.props ∧
      ∀ p : Nat, (p : Int) < f.fmt.numPlanes → (img al g p).Same (besideAll (img al f p) (t.map (img al · p))) := by
  have hl' : ∀ g ∈ t, Valid al g ∧ g.fmt = f.fmt := fun g hg => ⟨(hl g hg).1, (hl g hg).2.1⟩
  have geo : Geo f.fmt (f.width + sumW t) f.height :=
    ⟨hv.fmt, hv.known, by have := hv.width; omega, hv.height, Nat.dvd_add hv.modW (dvd_sumW t hl'), hv.modH,
      by rw [← hw]; exact hm, hv.rows⟩
  obtain ⟨g, e, h1, h2, h3, h4, h5, h6⟩ := make_ok (al := al) geo f.props junk (fun dst p b => do
      let r ← stackLoop al false dst p (f :: t) (b, 0)
      .ok r.1) (fun p => besideAll (img al f p) (t.map (img al · p)))
    (fun p _ => besideAll_sum p t _ (dvd_ssw hv.modW p) rfl hl') (fun p _ => (besideAll_w _ _).2)
    (by
      intro dst d1 d2 d3 p b hp hb
      have kh : ∀ g ∈ f :: t, Valid al g ∧ g.fmt = dst.fmt ∧ g.h p = dst.h p := by
        intro g hg
        rcases List.mem_cons.1 hg with rfl | hg
        · exact ⟨hv, d1.symm, by unfold Frm.h; rw [d1, d3]⟩
        · obtain ⟨h1, h2, h3⟩ := hl g hg
          exact ⟨h1, h2.trans d1.symm, by unfold Frm.h; rw [d1, d3, h2, h3]⟩
      have hfold : besideAll ⟨0, (img al f p).h, fun _ _ => []⟩ ((f :: t).map (img al · p)) =
          besideAll (img al f p) (t.map (img al · p)) := by
        show besideAll (beside _ (img al f p)) _ = _
        rw [beside_empty]
      have kw : (besideAll (img al f p) (t.map (img al · p))).w = dst.w p := by
        rw [besideAll_sum p t _ (dvd_ssw hv.modW p) rfl hl']
        unfold Frm.w
        rw [d1, d2]
      obtain ⟨r, e, r1, r2⟩ := stackH_ok ha (p := p) (d1 ▸ hp) (f :: t) ⟨0, (img al f p).h, fun _ _ => []⟩ kh
        (kh f (List.mem_cons_self ..)).2.2 (by rw [hfold]; exact kw) hb (fun x y hx => absurd hx (Nat.not_lt_zero _))
      rw [hfold] at r2
      refine ⟨r.1, ?_, r1, ?_⟩
      · have e' : stackLoop al false dst p (f :: t) (b, 0) = .ok r := by rw [← e]; simp
        rw [e', Res.bind_ok]
      · intro x y hx hy
        have := r2 x y (by rw [kw]; exact hx) (by
          rw [(besideAll_w _ _).2]
          show y < f.h p
          rw [(kh f (List.mem_cons_self ..)).2.2]; exact hy)
        rw [d1] at this
        exact this)
  refine ⟨g, ?_, h1, h2, h4, h3, h5, h6⟩
  unfold stackFrame
  simp only
  rw [hf, hw, hh]
  exact e

end VS.Pix
