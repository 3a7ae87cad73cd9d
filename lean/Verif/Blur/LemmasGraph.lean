import Verif.Blur.LemmasFrame
import Verif.Pix.PropsFlip
import Verif.Pix.PropsShuffle
import Verif.Pixel.Lemmas

/-! # Filters made of filters -/

namespace VS.Blur
open VS VS.Format VS.Map VS.Map.Spec VS.Pix VS.Pix.Spec VS.Point VS.Point.Spec VS.Pixel VS.Blur.Spec

theorem collect_ok {α : Type} {f : Nat → Res α} : ∀ (n i : Nat), (∀ k, k < n → ∃ a, f (i + k) = .ok a) →
    ∃ l, collect f i n = .ok l ∧ l.length = n ∧ ∀ k a, l[k]? = some a → f (i + k) = .ok a
  | 0, _, _ => ⟨[], rfl, rfl, fun k a h => absurd h (by simp)⟩
  | n + 1, i, h => by
    obtain ⟨a, ha⟩ := h 0 (by omega)
    obtain ⟨l, e, e1, e2⟩ := collect_ok n (i + 1) (fun k hk => by
      have := h (k + 1) (by omega)
      rwa [show i + (k + 1) = i + 1 + k by omega] at this)
    refine ⟨a :: l, ?_, by simp [e1], ?_⟩
    · unfold collect
      rw [show f i = .ok a from ha, Res.bind_ok, e, Res.bind_ok]
    · intro k b hb
      cases k with
      | zero => rw [List.getElem?_cons_zero, Option.some.injEq] at hb; rw [← hb]; exact ha
      | succ k =>
        rw [List.getElem?_cons_succ] at hb
        rw [show i + (k + 1) = i + 1 + k by omega]
        exact e2 k b hb

/-- The node `g` has the info `vi`, all of its frames can be made, and `R` holds for each frame of `c` and the frame of `g`. -/
def Makes (al : Nat) (c : PClip) (g : Graph) (vi : VInfo) (R : Frm → Frm → Prop) : Prop :=
  g.info c.vi = some vi ∧ vi.numFrames = c.vi.numFrames ∧ ∀ j, ∃ d, g.eval c j = .ok d ∧ ValidClip al d ∧ d.vi = vi ∧
    ∀ (n : Nat) f, c.frames[n]? = some f → ∃ k, d.frames[n]? = some k ∧ R f k

theorem evalOne_ok {al : Nat} {f : PFilter} {clips : List PClip} (hi : isValidVideoInfo f.vi = .ok true) (hr : f.vi.numFrames ≤ INT_MAX)
    (hf : ∀ n junk, ∃ k, f.frame clips n junk = .ok k ∧ Valid al k) (junk : Nat → Junk) :
    ∃ d, evalOne (.filter f) f.vi clips junk = .ok d ∧ ValidClip al d ∧ d.vi = f.vi ∧
      ∀ (n : Nat) k, d.frames[n]? = some k → f.frame clips n (junk n) = .ok k := by
  obtain ⟨l, e, e1, e2⟩ := collect_ok (f := fun n => (Created.filter f).frame clips n (junk n)) f.vi.numFrames.toNat 0 (fun k _ => by
    obtain ⟨a, ha, _⟩ := hf (0 + k) (junk (0 + k))
    exact ⟨a, ha⟩)
  have hn := ((info_iff f.vi).1 hi).2.2.2.2.2.1
  refine ⟨⟨f.vi, l⟩, ?_, ?_, rfl, ?_⟩
  · unfold evalOne
    rw [e, Res.bind_ok]
  · refine delivers_valid (f := f) (clips := clips) ⟨rfl, ?_, ?_⟩ hi hr ?_
    · show f.vi.numFrames = l.length
      omega
    · intro n k hk
      have := e2 n k hk
      rw [Nat.zero_add] at this
      exact ⟨_, this⟩
    · intro n junk g hg
      obtain ⟨k, h1, h2⟩ := hf n junk
      exact Res.ok.inj (h1.symm.trans hg) ▸ h2
  · intro n k hk
    have := e2 n k hk
    rw [Nat.zero_add] at this
    exact this

theorem at_of {c : PClip} {n : Nat} {f : Frm} (h : c.frames[n]? = some f) : at? c n = some f := by
  have := (List.getElem?_eq_some_iff.1 h).1
  unfold at?
  rw [show min n (c.frames.length - 1) = n by omega]
  exact h

/-- Frames of valid clips with the same number of frames. -/
theorem frame_of {al : Nat} {c d : PClip} (hc : ValidClip al c) (hd : ValidClip al d) (h : d.vi.numFrames = c.vi.numFrames) {n : Nat} {f : Frm}
    (hf : c.frames[n]? = some f) : ∃ k, d.frames[n]? = some k := by
  have h1 := hc.count
  have h2 := hd.count
  have := (List.getElem?_eq_some_iff.1 hf).1
  exact ⟨_, List.getElem?_eq_getElem (by omega)⟩

/-- One more filter. -/
theorem makes_one {al : Nat} {c : PClip} (hv : ValidClip al c) {g : Graph} {vi : VInfo} {R S : Frm → Frm → Prop} (hg : Makes al c g vi R) {f : PFilter}
    (hi : isValidVideoInfo f.vi = .ok true) (hn : f.vi.numFrames = vi.numFrames)
    (hf : ∀ d, ValidClip al d → d.vi = vi → ∀ n s, at? d n = some s → ∀ junk, ∃ k, f.frame [d] n junk = .ok k ∧ Valid al k ∧ S s k) :
    Makes al c (.one (.filter f) g) f.vi (fun a k => ∃ b, R a b ∧ S b k) := by
  obtain ⟨m1, m2, m3⟩ := hg
  refine ⟨rfl, hn.trans m2, ?_⟩
  intro j
  obtain ⟨d, d1, d2, d3, d4⟩ := m3 (fun l => j (0 :: l))
  obtain ⟨e, e1, e2, e3, e4⟩ := evalOne_ok (al := al) (f := f) (clips := [d]) hi (by rw [hn, m2]; exact hv.range) (by
    intro n junk
    obtain ⟨s, hs, _⟩ := at_some d2 n
    obtain ⟨k, k1, k2, _⟩ := hf d d2 d3 n s hs junk
    exact ⟨k, k1, k2⟩) (j [])
  refine ⟨e, ?_, e2, e3, ?_⟩
  · show ((g.eval c (fun l => j (0 :: l))) >>= fun d => match Graph.eval.outInfo' (.filter f) [d.vi] with
      | some vi => evalOne (.filter f) vi [d] (j [])
      | none => .ub) = _
    rw [d1, Res.bind_ok]
    exact e1
  · intro n a ha
    obtain ⟨b, b1, b2⟩ := d4 n a ha
    obtain ⟨k, hk⟩ := frame_of hv e2 (by rw [e3, hn, m2]) ha
    obtain ⟨k', q1, _, q2⟩ := hf d d2 d3 n b (at_of b1) (j [] n)
    have : k = k' := Res.ok.inj ((e4 n k hk).symm.trans q1)
    subst this
    exact ⟨k, hk, b, b2, q2⟩

theorem Makes.mono {al : Nat} {c : PClip} (hv : ValidClip al c) {g : Graph} {vi : VInfo} {R S : Frm → Frm → Prop} (h : Makes al c g vi R)
    (hRS : ∀ f k, f ∈ c.frames → Valid al k → R f k → S f k) : Makes al c g vi S := by
  obtain ⟨m1, m2, m3⟩ := h
  refine ⟨m1, m2, fun j => ?_⟩
  obtain ⟨d, d1, d2, d3, d4⟩ := m3 j
  refine ⟨d, d1, d2, d3, fun n f hf => ?_⟩
  obtain ⟨k, k1, k2⟩ := d4 n f hf
  exact ⟨k, k1, hRS f k (List.mem_of_getElem? hf) (d2.frames k (List.mem_of_getElem? k1)) k2⟩

theorem makes_input {al : Nat} {c : PClip} (hv : ValidClip al c) : Makes al c .input c.vi (fun f k => k = f) :=
  ⟨rfl, rfl, fun _ => ⟨c, rfl, hv, rfl, fun _ f hf => ⟨f, hf, rfl⟩⟩⟩

/-! ## Frames with one plane -/

/-- The frame `k` made from `f` has one plane with the samples `S f x y`. -/
def Plane (al : Nat) (fm : VFmt) (w h : Nat) (S : Frm → Nat → Nat → Nat) (f k : Frm) : Prop :=
  k.fmt = fm ∧ k.width = w ∧ k.height = h ∧ k.props = f.props ∧ ∀ x y, x < w → y < h → smp al k 0 x y = S f x y

/-- Formats with one plane. -/
structure Gray (fm : VFmt) : Prop where
  fmt : isValidVideoStruct fm = true
  work : Workable fm
  planes : fm.numPlanes = 1
  subW : fm.subSamplingW = 0
  subH : fm.subSamplingH = 0

theorem w_zero (f : Frm) : f.w 0 = f.width := by unfold Frm.w ssw; simp
theorem h_zero (f : Frm) : f.h 0 = f.height := by unfold Frm.h ssh; simp

/-- The info of a clip with one plane. -/
structure InfoOk (c : PClip) (fm : VFmt) (w h : Nat) (vi : VInfo) : Prop where
  valid : isValidVideoInfo vi = .ok true
  format : vi.format = fm
  width : vi.width = w
  height : vi.height = h

variable (F : Floats)

/-- Passes over the rows. -/
theorem makes_box {al : Nat} (ha : AlignOk al) {c : PClip} (hv : ValidClip al c) {g : Graph} {vi : VInfo} {fm : VFmt} {w h : Nat} (hgr : Gray fm)
    (hi : InfoOk c fm w h vi) (hw : 0 < w) {S : Frm → Nat → Nat → Nat} (hg : Makes al c g vi (Plane al fm w h S)) {r n : Nat} (hr0 : 0 < r)
    (hr : r ≤ 30000) (hn : 0 < n) (hwr : w + r ≤ 2 ^ 31) :
    create (boxFilter F al vi r n) = .ok (.filter (boxFilter F al vi r n)) ∧
    Makes al c (.one (.filter (boxFilter F al vi r n)) g) vi (Plane al fm w h (fun f x y => rowFn F fm r n w (fun x => S f x y) x)) := by
  refine ⟨create_ok hi.valid, ?_⟩
  refine (makes_one hv hg (f := boxFilter F al vi r n)
    (S := fun b k => b.fmt = fm → b.width = w → b.height = h → Plane al fm w h (fun f x y => rowFn F fm r n w (fun x => smp al f 0 x y) x) b k)
    hi.valid rfl ?_).mono hv ?_
  · intro d vd ed m s hs junk
    have hm := at_mem hs
    have sf : s.fmt = fm := (vd.fmt s hm (by rw [ed, hi.format]; exact hgr.work.1)).trans (by rw [ed, hi.format])
    obtain ⟨s1, s2⟩ := vd.size s hm (by rw [ed, hi.width]; omega)
    rw [ed, hi.width] at s1
    rw [ed, hi.height] at s2
    obtain ⟨k, e, vk, k1, k2, k3, k4, k5⟩ := blurFrame_ok F (align_pos ha) (vd.frames s hm) (by rw [sf]; exact hgr.work) (by rw [sf]; exact hgr.planes)
      hr0 hr hn (by omega) junk
    have hwd : s.width = w := by omega
    have hht : s.height = h := by omega
    refine ⟨k, ?_, vk, fun _ _ _ => ⟨k1.trans sf, k2.trans hwd, k3.trans hht, k4, ?_⟩⟩
    · refine frame_ok (f := boxFilter F al vi r n) (n := m) ?_ (fun _ => ?_) (fun _ => ?_)
      · show (getFrameFilter [d] [(0, m)] 0 m >>= fun src => blurFrame F al r n src junk) = _
        rw [get_ok (i := 0) rfl vd (List.mem_singleton.2 rfl) hs, Res.bind_ok, e]
      · show k.fmt = vi.format
        rw [k1, sf, hi.format]
      · show (k.width : Int) = vi.width ∧ (k.height : Int) = vi.height
        rw [k2, k3, hwd, hht, hi.width, hi.height]
        exact ⟨rfl, rfl⟩
    · intro x y hx hy
      rw [k5 x y (by omega) (by omega), sf, hwd]
  · rintro f k - - ⟨b, ⟨b1, b2, b3, b4, b5⟩, hk⟩
    obtain ⟨k1, k2, k3, k4, k5⟩ := hk b1 b2 b3
    refine ⟨k1, k2, k3, k4.trans b4, fun x y hx hy => ?_⟩
    rw [k5 x y hx hy]
    exact fn_congr F hw (fun x hx => b5 x y hx hy) hx

theorem swap_gray {fm : VFmt} (h : Gray fm) : swapFmt true fm = fm := by
  have h1 := h.subW
  have h2 := h.subH
  cases fm
  simp only at h1 h2
  subst h1 h2
  rfl

/-- Rows and columns exchanged. -/
theorem makes_transpose {al : Nat} (ha : AlignOk al) {blk : Nat → Nat × Nat} (hb : blk = blkC ∨ blk = blkSse2) {c : PClip} (hv : ValidClip al c)
    {g : Graph} {vi : VInfo} {fm : VFmt} {w h : Nat} (hgr : Gray fm) (hi : InfoOk c fm w h vi) (hw : 0 < w) (hh : 0 < h)
    (hrow : (h : Int) * bps fm ≤ INT_MAX) {S : Frm → Nat → Nat → Nat} (hg : Makes al c g vi (Plane al fm w h S)) :
    ∃ T, transposeCreate al blk .transpose vi = .ok T ∧ InfoOk c fm h w { vi with width := vi.height, height := vi.width } ∧
      Makes al c (.one T g) { vi with width := vi.height, height := vi.width } (Plane al fm h w (fun f x y => S f y x)) := by
  have kn := hgr.work.1
  have hcon : 0 < vi.width ∧ 0 < vi.height ∧ vi.format.colorFamily ≠ cfUndefined := by
    rw [hi.width, hi.height, hi.format]; exact ⟨by omega, by omega, kn⟩
  obtain ⟨i1, i2, i3, i4, i5, i6, i7, i8⟩ := (info_iff vi).1 hi.valid
  have hval : isValidVideoInfo { vi with width := vi.height, height := vi.width } = .ok true := by
    rw [info_iff]
    exact ⟨i1, i2, i3, i5, i4, i6, i7, i8.symm⟩
  have ec : transposeCreate al blk .transpose vi = .ok (.filter (simple { vi with width := vi.height, height := vi.width }
      (transposeFrame al blk { vi with width := vi.height, height := vi.width } .transpose))) := by
    unfold transposeCreate
    have e1 : isConstantVideoFormat { vi with width := vi.height, height := vi.width } = true := by
      unfold isConstantVideoFormat
      exact decide_eq_true ⟨hcon.1, hcon.2.1, hcon.2.2⟩
    simp only [e1, Bool.not_true, Bool.false_eq_true, if_false]
    rw [(query_swap i1 hcon.2.2).1, hi.format, swap_gray hgr, ← hi.format]
    exact create_ok hval
  refine ⟨_, ec, ⟨hval, hi.format, hi.height, hi.width⟩, ?_⟩
  refine (makes_one hv hg (S := fun b k => b.fmt = fm → b.width = w → b.height = h → Plane al fm h w (fun f x y => smp al f 0 y x) b k)
    hval rfl ?_).mono hv ?_
  · intro d vd ed m s hs junk
    subst ed
    obtain ⟨C, hC, hA⟩ := (C57_transpose ha hb .transpose vd).1 hcon
    have : C = _ := Res.ok.inj (hC.symm.trans ec)
    subst this
    have hm := at_mem hs
    obtain ⟨k, k0, vk, k1, k2, k3, k4, k5⟩ := hA (by rw [hi.height, hi.format]; exact hrow) m s hs junk
    rw [if_pos rfl] at k2 k3
    refine ⟨k, k0, vk, fun s1 s2 s3 => ⟨by rw [k1, s1, swap_gray hgr], by omega, by omega, k4, ?_⟩⟩
    intro x y hx hy
    have hs' := k5 0 (by rw [s1, hgr.planes]; decide)
    unfold smp
    rw [hs'.2.2 x y (by show x < k.w 0; rw [w_zero]; omega) (by show y < k.h 0; rw [h_zero]; omega)]
    rfl
  · rintro f k - - ⟨b, ⟨b1, b2, b3, b4, b5⟩, hk⟩
    obtain ⟨k1, k2, k3, k4, k5⟩ := hk b1 b2 b3
    refine ⟨k1, k2, k3, k4.trans b4, fun x y hx hy => ?_⟩
    rw [k5 x y hx hy]
    exact b5 y x hy hx

theorem info_eq {vi : VInfo} {g : Graph} {al : Nat} {c : PClip} {R : Frm → Frm → Prop} (h : Makes al c g vi R) : infoOf c.vi g = .ok vi := by
  unfold infoOf
  rw [h.1]

theorem makes_H {al : Nat} (ha : AlignOk al) {c : PClip} (hv : ValidClip al c) {g : Graph} {vi : VInfo} {fm : VFmt} {w h : Nat} (hgr : Gray fm)
    (hi : InfoOk c fm w h vi) (hw : 0 < w) {S : Frm → Nat → Nat → Nat} (hg : Makes al c g vi (Plane al fm w h S)) {r n : Nat}
    (hr : r ≤ 30000) (hwr : w + r ≤ 2 ^ 31) :
    ∃ g', applyH F al c.vi g r n = .ok g' ∧ Makes al c g' vi (Plane al fm w h (fun f x y => rowFn F fm r n w (fun x => S f x y) x)) := by
  unfold applyH
  by_cases h0 : 0 < r ∧ 0 < n
  · rw [if_pos h0, info_eq hg, Res.bind_ok]
    obtain ⟨e, m⟩ := makes_box F ha hv hgr hi hw hg h0.1 hr h0.2 hwr
    rw [e]
    exact ⟨_, rfl, m⟩
  · rw [if_neg h0]
    refine ⟨_, rfl, hg.mono hv ?_⟩
    rintro f k - - ⟨k1, k2, k3, k4, k5⟩
    refine ⟨k1, k2, k3, k4, fun x y hx hy => ?_⟩
    rw [k5 x y hx hy]
    exact (fn_zero F (s := fun x => S f x y) h0 hx).symm

theorem makes_V {al : Nat} (ha : AlignOk al) {blk : Nat → Nat × Nat} (hb : blk = blkC ∨ blk = blkSse2) {c : PClip} (hv : ValidClip al c)
    {g : Graph} {vi : VInfo} {fm : VFmt} {w h : Nat} (hgr : Gray fm) (hi : InfoOk c fm w h vi) (hw : 0 < w) (hh : 0 < h)
    (hroww : (w : Int) * bps fm ≤ INT_MAX) (hrow : (h : Int) * bps fm ≤ INT_MAX) {S : Frm → Nat → Nat → Nat}
    (hg : Makes al c g vi (Plane al fm w h S)) {r n : Nat} (hr : r ≤ 30000) (hwr : h + r ≤ 2 ^ 31) :
    ∃ g', applyV F al blk c.vi g r n = .ok g' ∧ Makes al c g' vi (Plane al fm w h (fun f x y => rowFn F fm r n h (fun y => S f x y) y)) := by
  unfold applyV
  by_cases h0 : 0 < r ∧ 0 < n
  · rw [if_pos h0, info_eq hg, Res.bind_ok]
    obtain ⟨T, t1, t2, t3⟩ := makes_transpose ha hb hv hgr hi hw hh hrow hg
    rw [t1]
    show ∃ g', (infoOf c.vi (.one T g) >>= fun v => _) = _ ∧ _
    rw [info_eq t3, Res.bind_ok]
    obtain ⟨e, m⟩ := makes_box F ha hv hgr t2 hh t3 h0.1 hr h0.2 hwr
    rw [e]
    show ∃ g', (infoOf c.vi (.one (.filter (boxFilter F al { vi with width := vi.height, height := vi.width } r n)) (.one T g)) >>= fun v => _) = _ ∧ _
    rw [info_eq m, Res.bind_ok]
    obtain ⟨T', t1', t2', t3'⟩ := makes_transpose ha hb hv hgr t2 hh hw hroww m
    rw [Res.bind_ok, t1']
    exact ⟨_, rfl, t3'⟩
  · rw [if_neg h0]
    refine ⟨_, rfl, hg.mono hv ?_⟩
    rintro f k - - ⟨k1, k2, k3, k4, k5⟩
    refine ⟨k1, k2, k3, k4, fun x y hx hy => ?_⟩
    rw [k5 x y hx hy]
    exact (fn_zero F h0 hy).symm

/-- Rows, then columns. -/
theorem makes_plane {al : Nat} (ha : AlignOk al) {blk : Nat → Nat × Nat} (hb : blk = blkC ∨ blk = blkSse2) {c : PClip} (hv : ValidClip al c)
    {g : Graph} {vi : VInfo} {fm : VFmt} {w h : Nat} (hgr : Gray fm) (hi : InfoOk c fm w h vi) (hw : 0 < w) (hh : 0 < h)
    (hroww : (w : Int) * bps fm ≤ INT_MAX) (hrow : (h : Int) * bps fm ≤ INT_MAX) {S : Frm → Nat → Nat → Nat}
    (hg : Makes al c g vi (Plane al fm w h S)) {r n r' n' : Nat} (hr : r ≤ 30000) (hwr : w + r ≤ 2 ^ 31) (hr' : r' ≤ 30000)
    (hhr : h + r' ≤ 2 ^ 31) :
    ∃ g', applyPlane F al blk c.vi g r n r' n' = .ok g' ∧
      Makes al c g' vi (Plane al fm w h (fun f => blurred (rowFn F fm r n) (rowFn F fm r' n') w h (S f))) := by
  unfold applyPlane
  obtain ⟨g1, e1, m1⟩ := makes_H F ha hv hgr hi hw hg (n := n) hr hwr
  obtain ⟨g2, e2, m2⟩ := makes_V F ha hb hv hgr hi hw hh hroww hrow m1 (n := n') hr' hhr
  rw [e1, Res.bind_ok]
  exact ⟨g2, e2, m2⟩

end VS.Blur
