import Verif.Pix.Example

/-! # C58: StackVertical and StackHorizontal -/

namespace VS.Pix
open VS VS.Format VS.Map VS.Map.Spec VS.Pix.Spec

/-! ## Parts of a stack -/

theorem aboveAll_px (a : Img) (l : List Img) {x y : Nat} (hy : y < a.h) : (aboveAll a l).px x y = a.px x y := by
  induction l generalizing a with
  | nil => rfl
  | cons b t ih =>
    show (aboveAll (above a b) t).px x y = _
    rw [ih (above a b) (show y < a.h + b.h by omega)]
    exact if_pos hy

theorem besideAll_px (a : Img) (l : List Img) {x y : Nat} (hx : x < a.w) : (besideAll a l).px x y = a.px x y := by
  induction l generalizing a with
  | nil => rfl
  | cons b t ih =>
    show (besideAll (beside a b) t).px x y = _
    rw [ih (beside a b) (show x < a.w + b.w by omega)]
    exact if_pos hx

theorem split_at {α : Type} {l : List α} {j : Nat} {i : α} (h : l[j]? = some i) : l = l.take j ++ i :: l.drop (j + 1) := by
  obtain ⟨h1, h2⟩ := List.getElem?_eq_some_iff.1 h
  rw [← h2, List.getElem_cons_drop, List.take_append_drop]

theorem aboveAll_split (a : Img) (l : List Img) {j : Nat} {i : Img} (h : l[j]? = some i) :
    aboveAll a l = aboveAll (above (aboveAll a (l.take j)) i) (l.drop (j + 1)) := by
  have e : aboveAll a l = aboveAll a (l.take j ++ i :: l.drop (j + 1)) := by rw [← split_at h]
  rw [e]
  unfold aboveAll
  rw [List.foldl_append, List.foldl_cons]

theorem aboveAll_part (a : Img) (l : List Img) {j : Nat} {i : Img} (h : l[j]? = some i) :
    (crop 0 (aboveAll a (l.take j)).h i.w i.h (aboveAll a l)).Same i := by
  refine ⟨rfl, rfl, fun x y hx hy => ?_⟩
  have hy' : y < i.h := hy
  show (aboveAll a l).px (x + 0) (y + (aboveAll a (l.take j)).h) = _
  rw [aboveAll_split a l h, aboveAll_px _ _ (show _ < (aboveAll a (l.take j)).h + i.h by omega)]
  show (if y + (aboveAll a (l.take j)).h < (aboveAll a (l.take j)).h then _ else
    i.px (x + 0) (y + (aboveAll a (l.take j)).h - (aboveAll a (l.take j)).h)) = _
  rw [if_neg (by omega), Nat.add_sub_cancel, Nat.add_zero]

theorem besideAll_split (a : Img) (l : List Img) {j : Nat} {i : Img} (h : l[j]? = some i) :
    besideAll a l = besideAll (beside (besideAll a (l.take j)) i) (l.drop (j + 1)) := by
  have e : besideAll a l = besideAll a (l.take j ++ i :: l.drop (j + 1)) := by rw [← split_at h]
  rw [e]
  unfold besideAll
  rw [List.foldl_append, List.foldl_cons]

theorem besideAll_part (a : Img) (l : List Img) {j : Nat} {i : Img} (h : l[j]? = some i) :
    (crop (besideAll a (l.take j)).w 0 i.w i.h (besideAll a l)).Same i := by
  refine ⟨rfl, rfl, fun x y hx hy => ?_⟩
  have hx' : x < i.w := hx
  show (besideAll a l).px (x + (besideAll a (l.take j)).w) (y + 0) = _
  rw [besideAll_split a l h, besideAll_px _ _ (show _ < (besideAll a (l.take j)).w + i.w by omega)]
  show (if x + (besideAll a (l.take j)).w < (besideAll a (l.take j)).w then _ else
    i.px (x + (besideAll a (l.take j)).w - (besideAll a (l.take j)).w) (y + 0)) = _
  rw [if_neg (by omega), Nat.add_sub_cancel, Nat.add_zero]

theorem crop_same {l t w h : Nat} {i j : Img} (e : i.Same j) (hw : l + w ≤ i.w) (hh : t + h ≤ i.h) :
    (crop l t w h i).Same (crop l t w h j) := by
  refine ⟨rfl, rfl, fun x y hx hy => ?_⟩
  have hx' : x < w := hx
  have hy' : y < h := hy
  exact e.2.2 _ _ (by omega) (by omega)

/-! ## Creation -/

theorem const_iff (vi : VInfo) : isConstantVideoFormat vi = true ↔
    0 < vi.height ∧ 0 < vi.width ∧ vi.format.colorFamily ≠ cfUndefined := by
  unfold isConstantVideoFormat
  exact decide_eq_true_iff

theorem same_iff (a b : VFmt) : isSameVideoFormat a b = true ↔ a.colorFamily = b.colorFamily ∧ a.sampleType = b.sampleType ∧
    a.bitsPerSample = b.bitsPerSample ∧ a.subSamplingW = b.subSamplingW ∧ a.subSamplingH = b.subSamplingH := by
  unfold isSameVideoFormat
  exact decide_eq_true_iff

/-- What the loop over the clips checks and computes. -/
theorem stackInfo_ok {vertical : Bool} {l : List VInfo} {d r : VInfo} (h : stackInfo vertical d l = .ok r) :
    r.format = d.format ∧ (∀ v ∈ l, isConstantVideoFormat v = true ∧ isSameVideoFormat v.format d.format = true ∧
      (vertical = true → v.width = d.width) ∧ (vertical = false → v.height = d.height)) ∧
    r.width = (if vertical then d.width else d.width + (l.map (·.width)).sum) ∧
    r.height = (if vertical then d.height + (l.map (·.height)).sum else d.height) ∧
    (l ≠ [] → InI32 r.width ∨ vertical = true) ∧ (l ≠ [] → InI32 r.height ∨ vertical = false) ∧
    d.numFrames ≤ r.numFrames ∧ (∀ v ∈ l, v.numFrames ≤ r.numFrames) ∧
    (r.numFrames = d.numFrames ∨ ∃ v ∈ l, r.numFrames = v.numFrames) ∧ r.fpsNum = d.fpsNum ∧ r.fpsDen = d.fpsDen := by
  induction l generalizing d with
  | nil =>
    rw [stackInfo, Res.ok.injEq] at h
    subst h
    cases vertical <;> simp
  | cons v t ih =>
    rw [stackInfo] at h
    simp only at h
    split at h
    · exact absurd h (by simp)
    rename_i hc
    simp only [Bool.or_eq_true, Bool.not_eq_true', Bool.and_eq_true, bne_iff_ne, ne_eq, not_or, not_and,
      Decidable.not_not, Bool.not_eq_false] at hc
    obtain ⟨⟨⟨c1, c2⟩, c3⟩, c4⟩ := hc
    have nf : ∀ a b : Int, a ≤ (if a < b then b else a) ∧ b ≤ (if a < b then b else a) ∧
        ((if a < b then b else a) = a ∨ (if a < b then b else a) = b) := by
      intro a b; split <;> omega
    obtain ⟨n1, n2, n3⟩ := nf d.numFrames v.numFrames
    cases vertical
    · simp only [Bool.false_eq_true, if_false] at h ⊢
      obtain ⟨w, ew, h⟩ := bind_eq_ok h
      obtain ⟨rfl, hw⟩ := i32_inv ew
      obtain ⟨k1, k2, k3, k4, k5, k6, k7, k8, k9, k10, k11⟩ := ih h
      simp only [Bool.false_eq_true, if_false] at k3 k4
      dsimp only at k2 k7 k9
      refine ⟨k1, ?_, ?_, k4, ?_, by simp, by omega, ?_, ?_, k10, k11⟩
      · intro x hx
        rcases List.mem_cons.1 hx with rfl | hx
        · exact ⟨c1, c2, by simp, fun _ => c4 rfl⟩
        · obtain ⟨a, b, _, e⟩ := k2 x hx
          exact ⟨a, b, by simp, fun _ => e rfl⟩
      · rw [k3, List.map_cons, List.sum_cons]; omega
      · intro _
        refine Or.inl ?_
        by_cases ht : t = []
        · subst ht; rw [k3]; simpa using hw
        · rcases k5 ht with k | k
          · exact k
          · exact absurd k (by simp)
      · intro x hx
        rcases List.mem_cons.1 hx with rfl | hx
        · omega
        · exact k8 x hx
      · rcases k9 with k9 | ⟨x, hx, k9⟩
        · rcases n3 with n3 | n3
          · exact Or.inl (by omega)
          · exact Or.inr ⟨v, List.mem_cons_self, by omega⟩
        · exact Or.inr ⟨x, List.mem_cons_of_mem _ hx, k9⟩
    · simp only [if_true] at h ⊢
      obtain ⟨w, ew, h⟩ := bind_eq_ok h
      obtain ⟨rfl, hw⟩ := i32_inv ew
      obtain ⟨k1, k2, k3, k4, k5, k6, k7, k8, k9, k10, k11⟩ := ih h
      simp only [if_true] at k3 k4
      dsimp only at k2 k7 k9
      refine ⟨k1, ?_, k3, ?_, by simp, ?_, by omega, ?_, ?_, k10, k11⟩
      · intro x hx
        rcases List.mem_cons.1 hx with rfl | hx
        · exact ⟨c1, c2, fun _ => c3 rfl, by simp⟩
        · obtain ⟨a, b, e, _⟩ := k2 x hx
          exact ⟨a, b, fun _ => e rfl, by simp⟩
      · rw [k4, List.map_cons, List.sum_cons]; omega
      · intro _
        refine Or.inl ?_
        by_cases ht : t = []
        · subst ht; rw [k4]; simpa using hw
        · rcases k6 ht with k | k
          · exact k
          · exact absurd k (by simp)
      · intro x hx
        rcases List.mem_cons.1 hx with rfl | hx
        · omega
        · exact k8 x hx
      · rcases k9 with k9 | ⟨x, hx, k9⟩
        · rcases n3 with n3 | n3
          · exact Or.inl (by omega)
          · exact Or.inr ⟨v, List.mem_cons_self, by omega⟩
        · exact Or.inr ⟨x, List.mem_cons_of_mem _ hx, k9⟩

theorem getAll_ok {get : Nat → Nat → Res Frm} {n : Nat} (fs : List Frm) (i : Nat)
    (h : ∀ (j : Nat) f, fs[j]? = some f → get (i + j) n = .ok f) : getAll get n i fs.length = .ok fs := by
  induction fs generalizing i with
  | nil => rfl
  | cons f t ih =>
    rw [List.length_cons, getAll, show get i n = .ok f from h 0 f rfl, Res.bind_ok, ih (i + 1), Res.bind_ok]
    intro j f hj
    rw [show i + 1 + j = i + (j + 1) by omega]
    exact h (j + 1) f (by rw [List.getElem?_cons_succ]; exact hj)

/-- The frames of the clips with a number. -/
theorem frames_get {clips : List PClip} {n : Nat} {fs : List Frm} (h : clips.map (at? · n) = fs.map some) :
    fs.length = clips.length ∧ ∀ (j : Nat) f, fs[j]? = some f → ∃ c, clips[j]? = some c ∧ at? c n = some f := by
  have hl : clips.length = fs.length := by
    have := congrArg List.length h
    simpa using this
  refine ⟨hl.symm, fun j f hj => ?_⟩
  obtain ⟨h1, h2⟩ := List.getElem?_eq_some_iff.1 hj
  have h3 : j < clips.length := by omega
  refine ⟨clips[j], List.getElem?_eq_getElem h3, ?_⟩
  have : (clips.map (at? · n))[j]? = (fs.map some)[j]? := by rw [h]
  rw [List.getElem?_map, List.getElem?_map, List.getElem?_eq_getElem h3, hj] at this
  exact Option.some.inj this

/-- What holds for the frames of clips that can be stacked. -/
theorem stack_setup {al : Nat} {vertical : Bool} {c : PClip} {t : List PClip} {C : Created} (ht : t ≠ [])
    (hv : ∀ x ∈ c :: t, ValidClip al x) (hC : stackCreate al vertical ((c :: t).map (·.vi)) = .ok C) {n : Nat} {f : Frm}
    {gs : List Frm} (hf : (c :: t).map (at? · n) = (f :: gs).map some) :
    ∃ vi, C = .filter ⟨vi, fun n => (List.range ((c :: t).map (·.vi)).length).map (fun i => (i, n)), fun n get junk =>
        getAll get n 0 ((c :: t).map (·.vi)).length >>= fun fs => stackFrame al vertical vi fs junk⟩ ∧
      stackInfo vertical c.vi (t.map (·.vi)) = .ok vi ∧
      isValidVideoInfo vi = .ok true ∧ vi.format = f.fmt ∧ Valid al f ∧ (f.width : Int) = c.vi.width ∧ (f.height : Int) = c.vi.height ∧
      (∀ g ∈ gs, Valid al g ∧ g.fmt = f.fmt ∧ (vertical = true → g.width = f.width) ∧ (vertical = false → g.height = f.height)) ∧
      ((t.map (·.vi)).map (·.width)).sum = sumW gs ∧ ((t.map (·.vi)).map (·.height)).sum = sumH gs := by
  have hf1 : at? c n = some f := (List.cons.inj (by simpa using hf : _ = _ :: _)).1
  have hf2 : t.map (at? · n) = gs.map some := (List.cons.inj (by simpa using hf : at? c n :: t.map (at? · n) = some f :: gs.map some)).2
  have vc := hv c List.mem_cons_self
  have v := vc.frames f (at_mem hf1)
  unfold stackCreate at hC
  rcases t with _ | ⟨c2, t⟩
  · exact absurd rfl ht
  simp only [List.map_cons] at hC
  obtain ⟨vi, hi, hC⟩ := bind_eq_ok hC
  obtain ⟨rfl, hinfo⟩ := create_eq_ok hC
  obtain ⟨k1, k2, k3, k4, k5, k6, k7, k8, k9, k10, k11⟩ := stackInfo_ok hi
  obtain ⟨a1, a2, a3, a4⟩ := k2 c2.vi (by simp)
  have con2 := (const_iff _).1 a1
  have sm := (same_iff _ _).1 a2
  have hk : c.vi.format.colorFamily ≠ cfUndefined := by rw [← sm.1]; exact con2.2.2
  have i8 := ((info_iff c.vi).1 vc.info).2.2.2.2.2.2.2
  have hpos : c.vi.width ≠ 0 ∨ c.vi.height ≠ 0 := by
    cases vertical
    · have := a4 rfl; omega
    · have := a3 rfl; omega
  have hs := vc.size f (at_mem hf1) hpos
  have hfm := vc.fmt f (at_mem hf1) hk
  have one : ∀ x ∈ c2 :: t, ∀ g, at? x n = some g → Valid al g ∧ g.fmt = f.fmt ∧ (g.width : Int) = x.vi.width ∧
      (g.height : Int) = x.vi.height ∧ (vertical = true → g.width = f.width) ∧ (vertical = false → g.height = f.height) := by
    intro x hx g hg
    have vx := hv x (List.mem_cons_of_mem _ hx)
    obtain ⟨b1, b2, b3, b4⟩ := k2 x.vi (List.mem_map.2 ⟨x, hx, rfl⟩)
    have cx := (const_iff _).1 b1
    have gm := at_mem hg
    have gs := vx.size g gm (by omega)
    have gf := vx.fmt g gm cx.2.2
    refine ⟨vx.frames g gm, ?_, gs.1, gs.2, fun h => ?_, fun h => ?_⟩
    · rw [gf, hfm]
      exact fmt_eq ((info_iff _).1 vx.info).1 cx.2.2 ((info_iff _).1 vc.info).1 b2
    · have := b3 h; omega
    · have := b4 h; omega
  refine ⟨vi, rfl, hi, hinfo, k1.trans hfm.symm, v, hs.1, hs.2, ?_, ?_, ?_⟩
  · intro g hg
    obtain ⟨j, hj, e⟩ := List.mem_iff_getElem.1 hg
    obtain ⟨_, hget⟩ := frames_get hf2
    obtain ⟨x, hx, hxa⟩ := hget j g (by rw [List.getElem?_eq_getElem hj, e])
    obtain ⟨o1, o2, _, _, o5, o6⟩ := one x (List.mem_of_getElem? hx) g hxa
    exact ⟨o1, o2, o5, o6⟩
  · have : ∀ (l : List PClip) (gs : List Frm), (∀ x ∈ l, x ∈ c2 :: t) → l.map (at? · n) = gs.map some →
        ((l.map (·.vi)).map (·.width)).sum = (sumW gs : Int) := by
      intro l
      induction l with
      | nil => intro gs _ h; rw [List.map_nil] at h; rw [List.map_eq_nil_iff.1 h.symm]; rfl
      | cons x l ih =>
        intro gs hsub h
        rcases gs with _ | ⟨g, gs⟩
        · exact absurd h (by simp)
        · obtain ⟨h1, h2⟩ := List.cons.inj (by simpa using h : at? x n :: l.map (at? · n) = some g :: gs.map some)
          have := ih gs (fun y hy => hsub y (List.mem_cons_of_mem _ hy)) h2
          obtain ⟨_, _, o3, _⟩ := one x (hsub x List.mem_cons_self) g h1
          simp only [List.map_cons, List.sum_cons, sumW] at this ⊢
          rw [this]; omega
    exact this _ _ (fun _ h => h) hf2
  · have : ∀ (l : List PClip) (gs : List Frm), (∀ x ∈ l, x ∈ c2 :: t) → l.map (at? · n) = gs.map some →
        ((l.map (·.vi)).map (·.height)).sum = (sumH gs : Int) := by
      intro l
      induction l with
      | nil => intro gs _ h; rw [List.map_nil] at h; rw [List.map_eq_nil_iff.1 h.symm]; rfl
      | cons x l ih =>
        intro gs hsub h
        rcases gs with _ | ⟨g, gs⟩
        · exact absurd h (by simp)
        · obtain ⟨h1, h2⟩ := List.cons.inj (by simpa using h : at? x n :: l.map (at? · n) = some g :: gs.map some)
          have := ih gs (fun y hy => hsub y (List.mem_cons_of_mem _ hy)) h2
          obtain ⟨_, _, _, o4, _⟩ := one x (hsub x List.mem_cons_self) g h1
          simp only [List.map_cons, List.sum_cons, sumH] at this ⊢
          rw [this]; omega
    exact this _ _ (fun _ h => h) hf2

/-- `getAll` finds the frames. -/
theorem stack_get {al : Nat} {clips : List PClip} (hv : ∀ x ∈ clips, ValidClip al x) {n : Nat} {fs : List Frm}
    (hf : clips.map (at? · n) = fs.map some) {k : Nat} (hk : k = clips.length) :
    getAll (getFrameFilter clips ((List.range k).map (fun i => (i, n)))) n 0 k = .ok fs := by
  obtain ⟨h1, h2⟩ := frames_get hf
  rw [hk, ← h1]
  refine getAll_ok fs 0 (fun j f hj => ?_)
  obtain ⟨c, hc, ha⟩ := h2 j f hj
  rw [Nat.zero_add]
  refine get_ok (n := n) hc (hv c (List.mem_of_getElem? hc)) (List.mem_map.2 ⟨j, List.mem_range.2 ?_, rfl⟩) ha
  exact (List.getElem?_eq_some_iff.1 hj).1

/-- C58. A frame of `StackVertical` consists of the frames of all clips with the same number (the last one of clips that
have ended), one above the other in the order of the clips. It has the properties of the frame of the first clip. -/
theorem C58_stack_vertical {al : Nat} (ha : AlignOk al) {clips : List PClip} (hv : ∀ c ∈ clips, ValidClip al c) {C : Created}
    (hC : stackCreate al true (clips.map (·.vi)) = .ok C) {n : Nat} {f : Frm} {gs : List Frm}
    (hf : clips.map (at? · n) = (f :: gs).map some) (junk : Junk) :
    ∃ g, C.frame clips n junk = .ok g ∧ Valid al g ∧ g.fmt = f.fmt ∧ g.width = f.width ∧ g.height = sumH (f :: gs) ∧
      g.props = f.props ∧
      ∀ p : Nat, (p : Int) < f.fmt.numPlanes → ∀ j x, (f :: gs)[j]? = some x →
        (crop 0 (sumH ((f :: gs).take j) / 2 ^ ssh f.fmt p) (x.w p) (x.h p) (img al g p)).Same (img al x p) := by
  rcases clips with _ | ⟨c, t⟩
  · exact absurd hf (by simp)
  by_cases ht : t = []
  · subst ht
    rw [List.map_cons, List.map_nil] at hC
    unfold stackCreate at hC
    rw [Res.ok.injEq] at hC
    subst hC
    obtain ⟨h1, h2⟩ := List.cons.inj (by simpa using hf : at? c n :: [] = some f :: gs.map some)
    have hg : gs = [] := List.map_eq_nil_iff.1 h2.symm
    subst hg
    have vc := hv c List.mem_cons_self
    refine ⟨f, pass_frame rfl vc h1 junk, vc.frames f (at_mem h1), rfl, rfl, by simp [sumH], rfl, ?_⟩
    intro p hp j x hx
    have hj := (List.getElem?_eq_some_iff.1 hx).1
    rw [List.length_singleton] at hj
    have : j = 0 := by omega
    subst this
    have hx' : f = x := Option.some.inj hx
    subst hx'
    refine ⟨rfl, rfl, fun a b _ _ => ?_⟩
    show (img al f p).px (a + 0) (b + 0 / _) = _
    rw [Nat.zero_div]
    rfl
  · obtain ⟨vi, rfl, hi, hinfo, e1, v, e2, e3, e4, e5, e6⟩ := stack_setup ht hv hC hf
    obtain ⟨k1, k2, k3, k4, k5, k6, k7, k8, k9, k10, k11⟩ := stackInfo_ok hi
    simp only [if_true] at k3 k4
    have hm : vi.height ≤ INT_MAX := by
      rcases k6 (by simpa using ht) with k | k
      · exact k.2
      · exact absurd k (by simp)
    have vl : ∀ g ∈ gs, Valid al g ∧ g.fmt = f.fmt := fun g hg => ⟨(e4 g hg).1, (e4 g hg).2.1⟩
    obtain ⟨g, q, h1, h2, h3, h4, h5, h6⟩ := stackFrameV_ok (align_pos ha) v (t := gs) (vi := vi)
      (fun g hg => ⟨(e4 g hg).1, (e4 g hg).2.1, (e4 g hg).2.2.1 rfl⟩) e1 (by rw [k3, e2]) (by rw [k4, e6]; omega) hm junk
    refine ⟨g, frame_ok ?_ (fun _ => h2.trans e1.symm) (fun _ => ⟨by rw [h3, k3, e2], by rw [h4, k4, e6]; omega⟩), h1, h2, h3,
      by rw [h4]; simp [sumH], h5, ?_⟩
    · show (getAll (getFrameFilter (c :: t) ((List.range ((c :: t).map (·.vi)).length).map (fun i => (i, n)))) n 0
        ((c :: t).map (·.vi)).length >>= fun fs => stackFrame al true vi fs junk) = _
      rw [stack_get hv hf (List.length_map _), Res.bind_ok]
      exact q
    · intro p hp j x hx
      have hS := h6 p hp
      have hx2 : x ∈ f :: gs := List.mem_of_getElem? hx
      have hxf : x.fmt = f.fmt ∧ x.width = f.width := by
        rcases List.mem_cons.1 hx2 with rfl | hx2
        · exact ⟨rfl, rfl⟩
        · exact ⟨(e4 x hx2).2.1, (e4 x hx2).2.2.1 rfl⟩
      have gw : (img al g p).w = x.w p := by
        show g.width / 2 ^ ssw g.fmt p = x.width / 2 ^ ssw x.fmt p
        rw [h2, h3, hxf.1, hxf.2]
      rcases j with _ | j
      · have hx' : f = x := Option.some.inj hx
        subst hx'
        rw [show sumH ((f :: gs).take 0) = 0 from rfl, Nat.zero_div]
        refine Same.trans (crop_same hS (by omega) ?_) ⟨rfl, rfl, fun a b _ hb => ?_⟩
        · rw [hS.2.1, Nat.zero_add]
          exact (aboveAll_h (img al f p) _).1
        · have hb' : b < (img al f p).h := hb
          show (aboveAll _ _).px (a + 0) (b + 0) = _
          exact aboveAll_px _ _ hb'
      · have hx' : gs[j]? = some x := by simpa using hx
        have hp2 := aboveAll_part (img al f p) (gs.map (img al · p)) (j := j) (i := img al x p) (by rw [List.getElem?_map, hx']; rfl)
        have hd : 2 ^ ssh f.fmt p ∣ f.height := dvd_ssh v.modH p
        have hsum := aboveAll_sum (al := al) (fmt := f.fmt) p (gs.take j) (img al f p) (H := f.height) hd rfl
          (fun g hg => vl g (List.mem_of_mem_take hg))
        rw [List.map_take] at hsum
        have : sumH ((f :: gs).take (j + 1)) = f.height + sumH (gs.take j) := by simp [sumH]
        rw [this, ← hsum]
        refine Same.trans (crop_same hS (by omega) ?_) hp2
        rw [hS.2.1]
        have hle := aboveAll_h (above (aboveAll (img al f p) ((gs.map (img al · p)).take j)) (img al x p)) ((gs.map (img al · p)).drop (j + 1))
        have e : aboveAll (img al f p) (gs.map (img al · p)) = aboveAll (above (aboveAll (img al f p) ((gs.map (img al · p)).take j))
            (img al x p)) ((gs.map (img al · p)).drop (j + 1)) := by
          exact aboveAll_split _ _ (by rw [List.getElem?_map, hx']; rfl)
        rw [e]
        exact hle.1

/-- C58. A frame of `StackHorizontal` consists of the frames of all clips with the same number, side by side. -/
theorem C58_stack_horizontal {al : Nat} (ha : AlignOk al) {clips : List PClip} (hv : ∀ c ∈ clips, ValidClip al c) {C : Created}
    (hC : stackCreate al false (clips.map (·.vi)) = .ok C) {n : Nat} {f : Frm} {gs : List Frm}
    (hf : clips.map (at? · n) = (f :: gs).map some) (hrow : (sumW (f :: gs) : Int) * bps f.fmt ≤ INT_MAX) (junk : Junk) :
    ∃ g, C.frame clips n junk = .ok g ∧ Valid al g ∧ g.fmt = f.fmt ∧ g.height = f.height ∧ g.width = sumW (f :: gs) ∧
      g.props = f.props ∧
      ∀ p : Nat, (p : Int) < f.fmt.numPlanes → ∀ j x, (f :: gs)[j]? = some x →
        (crop (sumW ((f :: gs).take j) / 2 ^ ssw f.fmt p) 0 (x.w p) (x.h p) (img al g p)).Same (img al x p) := by
  rcases clips with _ | ⟨c, t⟩
  · exact absurd hf (by simp)
  by_cases ht : t = []
  · subst ht
    rw [List.map_cons, List.map_nil] at hC
    unfold stackCreate at hC
    rw [Res.ok.injEq] at hC
    subst hC
    obtain ⟨h1, h2⟩ := List.cons.inj (by simpa using hf : at? c n :: [] = some f :: gs.map some)
    have hg : gs = [] := List.map_eq_nil_iff.1 h2.symm
    subst hg
    have vc := hv c List.mem_cons_self
    refine ⟨f, pass_frame rfl vc h1 junk, vc.frames f (at_mem h1), rfl, rfl, by simp [sumW], rfl, ?_⟩
    intro p hp j x hx
    have hj := (List.getElem?_eq_some_iff.1 hx).1
    rw [List.length_singleton] at hj
    have : j = 0 := by omega
    subst this
    have hx' : f = x := Option.some.inj hx
    subst hx'
    refine ⟨rfl, rfl, fun a b _ _ => ?_⟩
    show (img al f p).px (a + 0 / _) (b + 0) = _
    rw [Nat.zero_div]
    rfl
  · obtain ⟨vi, rfl, hi, hinfo, e1, v, e2, e3, e4, e5, e6⟩ := stack_setup ht hv hC hf
    obtain ⟨k1, k2, k3, k4, k5, k6, k7, k8, k9, k10, k11⟩ := stackInfo_ok hi
    simp only [Bool.false_eq_true, if_false] at k3 k4
    have esum : sumW (f :: gs) = f.width + sumW gs := by simp [sumW]
    have ew : vi.width = (f.width + sumW gs : Nat) := by rw [k3, e5]; omega
    have vl : ∀ g ∈ gs, Valid al g ∧ g.fmt = f.fmt := fun g hg => ⟨(e4 g hg).1, (e4 g hg).2.1⟩
    obtain ⟨g, q, h1, h2, h3, h4, h5, h6⟩ := stackFrameH_ok (align_pos ha) v (t := gs) (vi := vi)
      (fun g hg => ⟨(e4 g hg).1, (e4 g hg).2.1, (e4 g hg).2.2.2 rfl⟩) e1 (by rw [k4, e3]) ew
      (by rw [ew, ← esum]; exact hrow) junk
    refine ⟨g, frame_ok ?_ (fun _ => h2.trans e1.symm) (fun _ => ⟨by rw [h4, ew], by rw [h3, k4, e3]⟩), h1, h2, h3,
      by rw [h4, esum], h5, ?_⟩
    · show (getAll (getFrameFilter (c :: t) ((List.range ((c :: t).map (·.vi)).length).map (fun i => (i, n)))) n 0
        ((c :: t).map (·.vi)).length >>= fun fs => stackFrame al false vi fs junk) = _
      rw [stack_get hv hf (List.length_map _), Res.bind_ok]
      exact q
    · intro p hp j x hx
      have hS := h6 p hp
      have hx2 : x ∈ f :: gs := List.mem_of_getElem? hx
      have hxf : x.fmt = f.fmt ∧ x.height = f.height := by
        rcases List.mem_cons.1 hx2 with rfl | hx2
        · exact ⟨rfl, rfl⟩
        · exact ⟨(e4 x hx2).2.1, (e4 x hx2).2.2.2 rfl⟩
      have gh : (img al g p).h = x.h p := by
        show g.height / 2 ^ ssh g.fmt p = x.height / 2 ^ ssh x.fmt p
        rw [h2, h3, hxf.1, hxf.2]
      rcases j with _ | j
      · have hx' : f = x := Option.some.inj hx
        subst hx'
        rw [show sumW ((f :: gs).take 0) = 0 from rfl, Nat.zero_div]
        refine Same.trans (crop_same hS ?_ (by omega)) ⟨rfl, rfl, fun a b ha' _ => ?_⟩
        · rw [hS.1, Nat.zero_add]
          exact (besideAll_w (img al f p) _).1
        · have ha'' : a < (img al f p).w := ha'
          show (besideAll _ _).px (a + 0) (b + 0) = _
          exact besideAll_px _ _ ha''
      · have hx' : gs[j]? = some x := by simpa using hx
        have hp2 := besideAll_part (img al f p) (gs.map (img al · p)) (j := j) (i := img al x p) (by rw [List.getElem?_map, hx']; rfl)
        have hd : 2 ^ ssw f.fmt p ∣ f.width := dvd_ssw v.modW p
        have hsum := besideAll_sum (al := al) (fmt := f.fmt) p (gs.take j) (img al f p) (W := f.width) hd rfl
          (fun g hg => vl g (List.mem_of_mem_take hg))
        rw [List.map_take] at hsum
        have : sumW ((f :: gs).take (j + 1)) = f.width + sumW (gs.take j) := by simp [sumW]
        rw [this, ← hsum]
        refine Same.trans (crop_same hS ?_ (by omega)) hp2
        rw [hS.1]
        have hle := besideAll_w (beside (besideAll (img al f p) ((gs.map (img al · p)).take j)) (img al x p)) ((gs.map (img al · p)).drop (j + 1))
        have e : besideAll (img al f p) (gs.map (img al · p)) = besideAll (beside (besideAll (img al f p) ((gs.map (img al · p)).take j))
            (img al x p)) ((gs.map (img al · p)).drop (j + 1)) := by
          exact besideAll_split _ _ (by rw [List.getElem?_map, hx']; rfl)
        rw [e]
        exact hle.1

/-- The clips that can be stacked: several clips of constant format and size, all with the format of the first one and the
same width or height. -/
def Stackable (vertical : Bool) (v : VInfo) (l : List VInfo) : Prop :=
  ∀ w ∈ l, 0 < w.width ∧ 0 < w.height ∧ w.format.colorFamily ≠ cfUndefined ∧ w.format = v.format ∧
    (if vertical then w.width = v.width else w.height = v.height)

theorem stackInfo_all {vertical : Bool} {l : List VInfo} {d : VInfo} (hd : isValidVideoStruct d.format = true)
    (hv : ∀ w ∈ l, isValidVideoStruct w.format = true) (h0 : 0 ≤ d.width ∧ 0 ≤ d.height)
    (hp : ∀ w ∈ l, 0 ≤ w.width ∧ 0 ≤ w.height) (hs : if vertical then d.height + (l.map (·.height)).sum ≤ INT_MAX
      else d.width + (l.map (·.width)).sum ≤ INT_MAX) :
    (Stackable vertical d l → ∃ r, stackInfo vertical d l = .ok r) ∧
    (¬ Stackable vertical d l → ∃ m, stackInfo vertical d l = .err m) := by
  induction l generalizing d with
  | nil => exact ⟨fun _ => ⟨d, rfl⟩, fun h => absurd (fun w hw => absurd hw (by simp)) h⟩
  | cons w t ih =>
    have nonneg : ∀ l : List VInfo, (∀ w ∈ l, 0 ≤ w.width ∧ 0 ≤ w.height) → 0 ≤ (l.map (·.width)).sum ∧ 0 ≤ (l.map (·.height)).sum := by
      intro l
      induction l with
      | nil => intro _; simp
      | cons a l ih =>
        intro h
        have := ih (fun x hx => h x (List.mem_cons_of_mem _ hx))
        have := h a List.mem_cons_self
        simp only [List.map_cons, List.sum_cons]
        omega
    have hw := hp w List.mem_cons_self
    have nt := nonneg t (fun x hx => hp x (List.mem_cons_of_mem _ hx))
    simp only [List.map_cons, List.sum_cons] at hs
    rw [stackInfo]
    simp only
    by_cases hc : 0 < w.width ∧ 0 < w.height ∧ w.format.colorFamily ≠ cfUndefined ∧ w.format = d.format ∧
        (if vertical then w.width = d.width else w.height = d.height)
    · obtain ⟨c1, c2, c3, c4, c5⟩ := hc
      have e1 : isConstantVideoFormat w = true := (const_iff w).2 ⟨c2, c1, c3⟩
      have e2 : isSameVideoFormat w.format d.format = true := (same_iff _ _).2 (by rw [c4]; simp)
      have step : ∀ d' : VInfo, d'.format = d.format → (if vertical then d'.width = d.width else d'.height = d.height) →
          (Stackable vertical d (w :: t) ↔ Stackable vertical d' t) := by
        intro d' f1 f2
        unfold Stackable
        constructor
        · intro h x hx
          obtain ⟨a1, a2, a3, a4, a5⟩ := h x (List.mem_cons_of_mem _ hx)
          refine ⟨a1, a2, a3, a4.trans f1.symm, ?_⟩
          cases vertical
          · simp only [Bool.false_eq_true, if_false] at *; omega
          · simp only [if_true] at *; omega
        · intro h x hx
          rcases List.mem_cons.1 hx with rfl | hx
          · exact ⟨c1, c2, c3, c4, c5⟩
          · obtain ⟨a1, a2, a3, a4, a5⟩ := h x hx
            refine ⟨a1, a2, a3, a4.trans f1, ?_⟩
            cases vertical
            · simp only [Bool.false_eq_true, if_false] at *; omega
            · simp only [if_true] at *; omega
      cases vertical
      · simp only [Bool.false_eq_true, if_false] at hs c5 ⊢
        rw [if_neg (by simp [e1, e2, c5]), i32_ok (by unfold InI32 INT_MIN; omega), Res.bind_ok]
        rw [step { d with numFrames := if d.numFrames < w.numFrames then w.numFrames else d.numFrames, width := d.width + w.width }
          rfl (by simp)]
        refine ih hd (fun x hx => hv x (List.mem_cons_of_mem _ hx)) ⟨?_, h0.2⟩ (fun x hx => hp x (List.mem_cons_of_mem _ hx)) ?_
        · show 0 ≤ d.width + w.width; omega
        · show d.width + w.width + _ ≤ _; omega
      · simp only [if_true] at hs c5 ⊢
        rw [if_neg (by simp [e1, e2, c5]), i32_ok (by unfold InI32 INT_MIN; omega), Res.bind_ok]
        rw [step { d with numFrames := if d.numFrames < w.numFrames then w.numFrames else d.numFrames, height := d.height + w.height }
          rfl (by simp)]
        refine ih hd (fun x hx => hv x (List.mem_cons_of_mem _ hx)) ⟨h0.1, ?_⟩ (fun x hx => hp x (List.mem_cons_of_mem _ hx)) ?_
        · show 0 ≤ d.height + w.height; omega
        · show d.height + w.height + _ ≤ _; omega
    · refine ⟨fun h => absurd (h w List.mem_cons_self) hc, fun _ => ?_⟩
      rw [if_pos]
      · exact ⟨_, rfl⟩
      · refine Decidable.byContradiction fun hn => hc ?_
        simp only [Bool.or_eq_true, Bool.not_eq_true', Bool.and_eq_true, bne_iff_ne, ne_eq, not_or, not_and,
          Decidable.not_not, Bool.not_eq_false] at hn
        obtain ⟨⟨⟨c1, c2⟩, c3⟩, c4⟩ := hn
        have k := (const_iff _).1 c1
        refine ⟨k.2.1, k.1, k.2.2, fmt_eq (hv w List.mem_cons_self) k.2.2 hd c2, ?_⟩
        cases vertical
        · exact c4 rfl
        · exact c3 rfl

/-- C58. What the stack filters accept; anything else is an error. The result is as long as the longest clip. (For sums
beyond `INT_MAX` see `C58_stack_overflow_refuted`.) -/
theorem C58_stack_accepts {al : Nat} {vertical : Bool} {c : PClip} {t : List PClip} (ht : t ≠ []) (hv : ∀ x ∈ c :: t, ValidClip al x)
    (hs : if vertical then c.vi.height + ((t.map (·.vi)).map (·.height)).sum ≤ INT_MAX
      else c.vi.width + ((t.map (·.vi)).map (·.width)).sum ≤ INT_MAX) :
    (Stackable vertical c.vi (t.map (·.vi)) → ∃ C vi, stackCreate al vertical ((c :: t).map (·.vi)) = .ok C ∧
      outInfo C (c :: t) = some vi ∧ (∀ x ∈ c :: t, x.vi.numFrames ≤ vi.numFrames) ∧ ∃ x ∈ c :: t, vi.numFrames = x.vi.numFrames) ∧
    (¬ Stackable vertical c.vi (t.map (·.vi)) → ∃ m, stackCreate al vertical ((c :: t).map (·.vi)) = .err m) := by
  have vc := hv c List.mem_cons_self
  have ic := (info_iff c.vi).1 vc.info
  have hv' : ∀ w ∈ t.map (·.vi), isValidVideoInfo w = .ok true := by
    intro w hw
    obtain ⟨x, hx, rfl⟩ := List.mem_map.1 hw
    exact (hv x (List.mem_cons_of_mem _ hx)).info
  obtain ⟨a1, a2⟩ := stackInfo_all (vertical := vertical) (l := t.map (·.vi)) ic.1 (fun w hw => ((info_iff w).1 (hv' w hw)).1)
    ⟨ic.2.2.2.2.1, ic.2.2.2.1⟩ (fun w hw => ⟨((info_iff w).1 (hv' w hw)).2.2.2.2.1, ((info_iff w).1 (hv' w hw)).2.2.2.1⟩) hs
  rcases t with _ | ⟨c2, t⟩
  · exact absurd rfl ht
  have unf : stackCreate al vertical ((c :: c2 :: t).map (·.vi)) = stackInfo vertical c.vi ((c2 :: t).map (·.vi)) >>= fun vi =>
      create ⟨vi, fun n => (List.range ((c :: c2 :: t).map (·.vi)).length).map (fun i => (i, n)), fun n get junk =>
        getAll get n 0 ((c :: c2 :: t).map (·.vi)).length >>= fun fs => stackFrame al vertical vi fs junk⟩ := rfl
  rw [unf]
  constructor
  · intro h
    obtain ⟨r, hr⟩ := a1 h
    rw [hr, Res.bind_ok]
    obtain ⟨k1, k2, k3, k4, k5, k6, k7, k8, k9, k10, k11⟩ := stackInfo_ok hr
    have pos : 0 < r.width ∧ 0 < r.height := by
      have nn : ∀ l : List PClip, (∀ x ∈ l, x ∈ c2 :: t) → 0 ≤ ((l.map (·.vi)).map (·.width)).sum ∧ 0 ≤ ((l.map (·.vi)).map (·.height)).sum := by
        intro l
        induction l with
        | nil => intro _; simp
        | cons a l ih =>
          intro hh
          have := ih (fun x hx => hh x (List.mem_cons_of_mem _ hx))
          have := h a.vi (List.mem_map.2 ⟨a, hh a List.mem_cons_self, rfl⟩)
          simp only [List.map_cons, List.sum_cons]
          omega
      have n1 := nn (c2 :: t) (fun _ h => h)
      have h2 := h c2.vi (by simp)
      have i4 := ic.2.2.2.1
      have i5 := ic.2.2.2.2.1
      have i8 := ic.2.2.2.2.2.2.2
      cases vertical
      · simp only [Bool.false_eq_true, if_false] at k3 k4 h2; omega
      · simp only [if_true] at k3 k4 h2; omega
    refine ⟨_, r, create_ok ?_, rfl, ?_, ?_⟩
    · rw [info_iff]
      show isValidVideoStruct r.format = true ∧ 0 ≤ r.fpsDen ∧ 0 ≤ r.fpsNum ∧ 0 ≤ r.height ∧ 0 ≤ r.width ∧ 1 ≤ r.numFrames ∧
        reduceRational r.fpsNum r.fpsDen = .ok (r.fpsNum, r.fpsDen) ∧ (r.height ≠ 0 ↔ r.width ≠ 0)
      rw [k1, k10, k11]
      have i6 := ic.2.2.2.2.2.1
      exact ⟨ic.1, ic.2.1, ic.2.2.1, by omega, by omega, by omega, ic.2.2.2.2.2.2.1, by omega⟩
    · intro x hx
      rcases List.mem_cons.1 hx with rfl | hx
      · exact k7
      · exact k8 _ (List.mem_map.2 ⟨x, hx, rfl⟩)
    · rcases k9 with k9 | ⟨w, hw, k9⟩
      · exact ⟨c, List.mem_cons_self, k9⟩
      · obtain ⟨x, hx, rfl⟩ := List.mem_map.1 hw
        exact ⟨x, List.mem_cons_of_mem _ hx, k9⟩
  · intro h
    obtain ⟨m, hm⟩ := a2 h
    exact ⟨m, by rw [hm, Res.bind_err]⟩

/-- Three clips one above the other. -/
example : ∃ C, stackCreate 32 true ([exClip, exClip, exClip].map (·.vi)) = .ok C ∧
    [exClip, exClip, exClip].map (at? · 0) = [mkFrame 32 yuv420 8 8 exPx Dict.empty, mkFrame 32 yuv420 8 8 exPx Dict.empty,
      mkFrame 32 yuv420 8 8 exPx Dict.empty].map some := by
  obtain ⟨C, _, h, _⟩ := (C58_stack_accepts (al := 32) (vertical := true) (c := exClip) (t := [exClip, exClip]) (by simp)
    (by simp [exClip_valid]) (by decide)).1 (by unfold Stackable; decide)
  exact ⟨C, h, rfl⟩

/-- Two clips side by side. -/
example : ∃ C, stackCreate 32 false ([exClip, exClip].map (·.vi)) = .ok C := by
  obtain ⟨C, _, h, _⟩ := (C58_stack_accepts (al := 32) (vertical := false) (c := exClip) (t := [exClip]) (by simp)
    (by simp [exClip_valid]) (by decide)).1 (by unfold Stackable; decide)
  exact ⟨C, h⟩

/-- A clip with frames of 2^30 rows. -/
def tallClip : PClip := ⟨⟨yuv420, 25, 1, 8, 2 ^ 30, 1⟩, [mkFrame 32 yuv420 8 (2 ^ 30) exPx Dict.empty]⟩

theorem tallClip_valid : ValidClip 32 tallClip := by
  have geo : Geo yuv420 8 (2 ^ 30) := ⟨by decide, by decide, by decide, by decide, by decide, by decide, by decide, by decide⟩
  refine ⟨(info_iff _).2 ?_, rfl, by decide, ?_, ?_, ?_⟩
  · have := (info_iff _).1 exClip_valid.info
    exact ⟨this.1, this.2.1, this.2.2.1, by decide, by decide, by decide, this.2.2.2.2.2.2.1, by decide⟩
  · intro f hf
    rw [List.mem_singleton.1 hf]
    exact mkFrame_valid geo _ _
  · intro f hf _
    rw [List.mem_singleton.1 hf]; rfl
  · intro f hf _
    rw [List.mem_singleton.1 hf]; exact ⟨rfl, rfl⟩

/-- C58 is violated if the sum of the heights does not fit into an `int`: instead of an error there is a signed overflow. -/
theorem C58_stack_overflow_refuted : ValidClip 32 tallClip ∧
    stackCreate 32 true ([tallClip, tallClip].map (·.vi)) = .ub := ⟨tallClip_valid, rfl⟩

end VS.Pix
