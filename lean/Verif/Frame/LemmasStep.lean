import Verif.Frame.LemmasWorld

/-! Helper lemmas: every call keeps the two worlds in step. -/

namespace VS.Frame
open VS

variable {thr limit : Nat} {w w' : World} {s : SWorld}

/-- A token's plane is not the plane of a source that is not the token's. -/
theorem Rel.token_src (r : Rel thr limit w s) {g k id : Nat} {f : Frame} {p : Plane}
    (hf : w.frames.get g = some f) (hk : f.data[k]? = some id) (hp : w.ps.planes.get id = some p)
    (h1 : p.ref = 1) {src : Src} (hs : srcId w src = some id) :
    ∃ q, src = some (g, q) ∧ q.toNat = k := by
  have hc : (heldOf w.frames).count id = 1 := by rw [← (r.pinv.live id p hp).1, h1]
  cases src with
  | none => simp [srcId] at hs
  | some gp =>
    obtain ⟨g', q⟩ := gp
    simp only [srcId] at hs
    cases hf' : w.frames.get g' with
    | none => simp [hf'] at hs
    | some f' =>
      simp only [hf'] at hs
      obtain ⟨e1, e2⟩ := only_ref hc hf hf' hk hs
      exact ⟨q, by rw [e1], e2.symm⟩

theorem newVideo2_rel (r : Rel thr limit w s) {fmt : Fmt} {x y : Int} {srcs : List Src}
    {junk : Nat → Nat → Nat} (ha : fmt.audio = false) (hx : 0 < x) (hy : 0 < y)
    (hlen : srcs.length = fmt.numPlanes)
    (hl : ∀ i (h : i < srcs.length), s.LegalSrc fmt x.toNat y.toNat i srcs[i]) :
    (∃ w', newVideo2 w fmt x y srcs junk = .ok (w', s.frames.length) ∧
      Rel thr limit w' ((s.add (s.video fmt x.toNat y.toNat srcs junk)).shareSrcs srcs)) ∨
    newVideo2 w fmt x y srcs junk = .fatal oom := by
  have hc : ¬(x ≤ 0 ∨ y ≤ 0) := by omega
  rcases buildPlanes_ok r (f := blank fmt x.toNat y.toNat (strideOf w.align x.toNat fmt.bps))
      (junk := junk) srcs (t := w.ps) (acc := []) (i := 0) r.pinv (Keeps.refl _ _)
      (fun k hk => by rw [Nat.zero_add]; exact hl k hk) with
    ⟨t, ids, e, h1, h2, h3, h4, h5⟩ | e
  · left
    refine ⟨_, by simp only [newVideo2, if_neg hc, e, Res.bind_ok, r.len]; rfl, ?_⟩
    refine r.addFrame (f := { blank fmt x.toNat y.toNat (strideOf w.align x.toNat fmt.bps) with data := ids })
      (by simpa using h1) (by simpa using h2) ?_ _ ?_
    · refine ⟨rfl, Nat.one_pos, rfl, rfl, rfl, ?_, ?_, ?_, h4, ?_⟩
      · simp only [SWorld.video, r.align, blank]
      · simp only [SWorld.video, initials_length, h3]
      · simp only [blank, ha, h3, hlen]; simp
      · simp only [blank, ha]; simp
    · intro tok htok
      simp only [SWorld.add, List.mem_filter] at htok
      refine ⟨htok.1, ?_⟩
      intro f id p hf hk hp hr
      refine h5 id p hp ?_
      intro src hsrc hid
      obtain ⟨q, e1, e2⟩ := r.token_src hf hk hp hr hid
      have := htok.2
      simp only [Bool.not_eq_true', List.any_eq_false] at this
      have := this src hsrc
      rw [e1] at this
      simp [e2] at this
  · right
    simp only [newVideo2, if_neg hc, e, Res.bind_fatal]

/-- The bytes after the channels from `i` on have been copied. -/
def mixed (s : SWorld) (stride len i : Nat) (srcs : List Src) (b : Nat → Nat) : Nat → Nat :=
  fun x =>
    if i ≤ x / stride then
      match srcs[x / stride - i]? with
      | some (some (g, c)) =>
        match s.frames.get g with
        | some f => if x % stride < len then f.channel c.toNat (x % stride) else b x
        | none => b x
      | _ => b x
    else b x

theorem in_channel {x i stride len : Nat} (h0 : 0 < stride) (hl : len ≤ stride) :
    (i * stride ≤ x ∧ x < i * stride + len) ↔ (x / stride = i ∧ x % stride < len) := by
  have hd := Nat.div_add_mod x stride
  have hm := Nat.mod_lt x h0
  constructor
  · rintro ⟨h1, h2⟩
    have : x / stride = i := by
      apply Nat.div_eq_of_lt_le
      · exact h1
      · rw [Nat.succ_mul]; omega
    refine ⟨this, ?_⟩
    rw [this, Nat.mul_comm] at hd
    omega
  · rintro ⟨h1, h2⟩
    rw [h1, Nat.mul_comm] at hd
    omega

theorem setPlane_same {t : PS} {id : Nat} {p : Plane} (hp : t.planes.get id = some p) :
    t.setPlane id p = t := by
  have : t.planes.put id (some p) = t.planes := by
    have hlt := Heap.get_lt hp
    unfold Heap.put
    apply List.ext_getElem?
    intro j
    by_cases hj : id = j
    · subst hj
      rw [List.getElem?_set_self hlt]
      have hp' := hp
      unfold Heap.get at hp'
      rw [List.getElem?_eq_getElem hlt] at hp' ⊢
      simpa using hp'.symm
    · rw [List.getElem?_set_ne hj]
  simp only [PS.setPlane, this]

theorem copyChannel_ok (r : Rel thr limit w s) {f : Frame} {t : PS} {id i : Nat} {src : Src}
    {p : Plane} (hid : id ∉ heldOf w.frames) (hk : Keeps w.ps t (heldOf w.frames))
    (hp : t.planes.get id = some p) (hsz : p.size = f.stride * f.fmt.numPlanes)
    (hst : f.stride = f.fmt.bps * SAMPLES) (hw : f.width ≤ SAMPLES) (hb : 0 < f.fmt.bps)
    (hi : i < f.fmt.numPlanes) (hl : s.LegalChannel f.fmt f.width src) :
    ∃ b, copyChannel w f t id i src = .ok (t.setPlane id { p with bytes := b }) ∧
      b = mixed s f.stride (f.width * f.fmt.bps) i [src] p.bytes := by
  have hlen : f.width * f.fmt.bps ≤ f.stride := by
    rw [hst, Nat.mul_comm]; exact Nat.mul_le_mul_left _ hw
  have h0 : 0 < f.stride := by rw [hst]; exact Nat.mul_pos hb (by decide)
  have hin : (i + 1) * f.stride ≤ f.stride * f.fmt.numPlanes := by
    rw [Nat.mul_comm f.stride]; exact Nat.mul_le_mul_right _ hi
  rw [Nat.succ_mul] at hin
  cases src with
  | none =>
    refine ⟨p.bytes, ?_, ?_⟩
    · simp only [copyChannel]
      rw [setPlane_same hp]
    · funext x
      simp only [mixed]
      split
      · rcases Nat.eq_zero_or_pos (x / f.stride - i) with h | h
        · rw [h]; rfl
        · rw [List.getElem?_eq_none (by simp only [List.length_cons, List.length_nil]; omega)]
      · rfl
  | some gc =>
    obtain ⟨g, c⟩ := gc
    obtain ⟨sf, g1, g2, g3, g4, g5, g6⟩ := hl
    obtain ⟨f', hf, hr⟩ := r.get g1
    have hau : f'.fmt.audio = true := by rw [← hr.fmt]; exact g2
    have hsh := hr.shape
    rw [if_pos hau] at hsh
    have hd : f'.data[0]? = some (f'.data[0]'(by omega)) := List.getElem?_eq_getElem _
    obtain ⟨q, hq1, hq2⟩ := hr.planes 0 _ hd
    have hmem := mem_heldOf hf (List.mem_of_getElem? hd)
    obtain ⟨q', k1, k2, k3, k4⟩ := hk _ hmem q hq1
    obtain ⟨a1, a2, a3⟩ := hr.audio hau
    have hq3 := a3 _ hq2
    have hbp : f'.fmt.bps = f.fmt.bps := by rw [← hr.fmt]; exact g6
    have hse : f'.stride = f.stride := by rw [a1, hst, hbp]
    simp only at hq3
    have hc : (c.toNat + 1) * f.stride ≤ q'.size := by
      rw [k3, hq3, hse, Nat.mul_comm f.stride]
      apply Nat.mul_le_mul_right
      rw [← hr.fmt]; omega
    rw [Nat.succ_mul] at hc
    refine ⟨copyBytes p.bytes q'.bytes (i * f.stride) (c.toNat * f'.stride) (f.width * f.fmt.bps),
      ?_, ?_⟩
    · simp only [copyChannel, frame, hf, Res.bind_ok]
      rw [if_neg (by rw [← hr.fmt]; omega), if_neg (by rw [← hr.width]; simp [g5])]
      simp only [dataOf, hd, Res.bind_ok, plane, k1, hp]
      rw [if_pos (by rw [hse, hsz]; omega)]
    · funext x
      simp only [copyBytes, mixed]
      by_cases hx : x / f.stride = i ∧ x % f.stride < f.width * f.fmt.bps
      · rw [if_pos ((in_channel h0 hlen).2 hx), if_pos (by omega)]
        have e0 : x / f.stride - i = 0 := by omega
        simp only [e0, List.getElem?_cons_zero, g1, if_pos hx.2, SFrame.channel]
        rw [List.getD_eq_getElem?_getD, hq2, k4, hr.stride]
        simp only [Option.getD_some]
        congr 1
        have hdm := Nat.div_add_mod x f.stride
        rw [hx.1, Nat.mul_comm] at hdm
        omega
      · rw [if_neg (fun h => hx ((in_channel h0 hlen).1 h))]
        split
        · rename_i hle
          rcases Nat.eq_zero_or_pos (x / f.stride - i) with h | h
          · have : ¬ x % f.stride < f.width * f.fmt.bps := fun hh => hx ⟨by omega, hh⟩
            simp only [h, List.getElem?_cons_zero, g1, if_neg this]
          · rw [List.getElem?_eq_none (by simp only [List.length_cons, List.length_nil]; omega)]
        · rfl

theorem mixed_cons (s : SWorld) (stride len i : Nat) (src : Src) (rest : List Src)
    (b : Nat → Nat) : mixed s stride len (i + 1) rest (mixed s stride len i [src] b) =
      mixed s stride len i (src :: rest) b := by
  funext x
  rcases Nat.lt_trichotomy (x / stride) i with h | h | h
  · simp only [mixed]
    rw [if_neg (by omega), if_neg (by omega), if_neg (by omega)]
  · simp only [mixed]
    rw [if_neg (by omega), if_pos (by omega), if_pos (by omega)]
    have : x / stride - i = 0 := by omega
    simp only [this, List.getElem?_cons_zero]
  · have hm : mixed s stride len i [src] b x = b x := by
      simp only [mixed]
      rw [if_pos (by omega), List.getElem?_eq_none (by simp; omega)]
    have e : x / stride - i = (x / stride - (i + 1)) + 1 := by omega
    show (if i + 1 ≤ x / stride then _ else _) = _
    rw [hm]
    simp only [mixed]
    rw [if_pos (by omega), if_pos (by omega), e, List.getElem?_cons_succ]

theorem setPlane_set {t : PS} {id : Nat} {p q : Plane} (hp : t.planes.get id = some p) :
    (t.setPlane id q).planes.get id = some q := Heap.get_put_self _ (Heap.get_lt hp)

theorem setPlane_setPlane (t : PS) (id : Nat) (p q : Plane) :
    (t.setPlane id p).setPlane id q = t.setPlane id q := by
  simp only [PS.setPlane, Heap.put, List.set_set]

theorem copyChannels_ok (r : Rel thr limit w s) {f : Frame} {id : Nat}
    (hid : id ∉ heldOf w.frames) (hst : f.stride = f.fmt.bps * SAMPLES) (hw : f.width ≤ SAMPLES)
    (hb : 0 < f.fmt.bps) (srcs : List Src) : ∀ {t : PS} {i : Nat} {p : Plane},
    Keeps w.ps t (heldOf w.frames) → t.planes.get id = some p →
    p.size = f.stride * f.fmt.numPlanes → i + srcs.length ≤ f.fmt.numPlanes →
    (∀ src ∈ srcs, s.LegalChannel f.fmt f.width src) →
    ∃ b, copyChannels w f id t i srcs = .ok (t.setPlane id { p with bytes := b }) ∧
      b = mixed s f.stride (f.width * f.fmt.bps) i srcs p.bytes := by
  induction srcs with
  | nil =>
    intro t i p hk hp hsz hi hl
    refine ⟨p.bytes, by simp only [copyChannels]; rw [setPlane_same hp], ?_⟩
    funext x
    simp only [mixed, List.getElem?_nil]
    split <;> rfl
  | cons src rest ih =>
    intro t i p hk hp hsz hi hl
    simp only [List.length_cons] at hi
    obtain ⟨b, e1, e2⟩ := copyChannel_ok r hid hk hp hsz hst hw hb (i := i) (by omega)
      (hl src (by simp))
    have hk' : Keeps w.ps (t.setPlane id { p with bytes := b }) (heldOf w.frames) := by
      intro j hj q hq
      have hne : id ≠ j := fun h => hid (h ▸ hj)
      obtain ⟨q', h1, h2⟩ := hk j hj q hq
      exact ⟨q', by simp only [PS.setPlane]; rw [Heap.get_put_ne _ hne]; exact h1, h2⟩
    obtain ⟨b', e3, e4⟩ := ih (i := i + 1) hk' (setPlane_set hp) hsz (by omega)
      (fun x hx => hl x (List.mem_cons_of_mem _ hx))
    refine ⟨b', ?_, ?_⟩
    · simp only [copyChannels, e1, Res.bind_ok, e3, setPlane_setPlane]
    · rw [e4, e2, mixed_cons]

theorem newAudio2_rel (r : Rel thr limit w s) {fmt : Fmt} {n : Int} {srcs : List Src}
    {junk : Nat → Nat} (ha : fmt.audio = true) (hn : 0 < n) (hN : n ≤ SAMPLES)
    (hc : fmt.numPlanes ≤ 64) (hb : 0 < fmt.bps) (hb8 : fmt.bps ≤ 8)
    (hlen : srcs.length ≤ fmt.numPlanes)
    (hl : ∀ src ∈ srcs, s.LegalChannel fmt n.toNat src) :
    (∃ w', newAudio2 w fmt n srcs junk = .ok (w', s.frames.length) ∧
      Rel thr limit w' (s.add (s.audio fmt n.toNat srcs junk))) ∨
    newAudio2 w fmt n srcs junk = .fatal oom := by
  have hc' : ¬ n ≤ 0 := by omega
  have hS : SAMPLES = 3072 := rfl
  have hsz : fmt.bps * SAMPLES * fmt.numPlanes < 9223372036854775808 := by
    have h1 : fmt.bps * SAMPLES ≤ 8 * 3072 := Nat.mul_le_mul hb8 (Nat.le_of_eq hS)
    have h2 := Nat.mul_le_mul h1 hc
    omega
  rcases newPlane_total r.pinv (b := junk) hsz with ⟨t, id, e⟩ | e
  · left
    obtain ⟨h1, h2, h3, ⟨buf, h4⟩, h5⟩ := newPlane_inv r.pinv hsz e
    have hk : Keeps w.ps t (heldOf w.frames) := fun j _ q hq => ⟨q, h5 j q hq, rfl, rfl, rfl⟩
    obtain ⟨b, e1, e2⟩ := copyChannels_ok r
      (f := blank fmt n.toNat 0 (fmt.bps * SAMPLES)) h3 rfl
      (by simp only [blank]; omega) hb srcs (i := 0) hk h4 rfl
      (by simp only [blank]; omega) hl
    have hk' : Keeps w.ps (t.setPlane id ⟨1, buf, fmt.bps * SAMPLES * fmt.numPlanes, b⟩)
        (heldOf w.frames) := by
      intro j hj q hq
      have hne : id ≠ j := fun h => h3 (h ▸ hj)
      obtain ⟨q', g1, g2⟩ := hk j hj q hq
      exact ⟨q', by simp only [PS.setPlane]; rw [Heap.get_put_ne _ hne]; exact g1, g2⟩
    refine ⟨_, by
      simp only [newAudio2, if_neg hc']
      simp only [blank] at e1 ⊢
      simp only [e, e1, Res.bind_ok, r.len]; rfl, ?_⟩
    refine r.addFrame (f := ⟨1, fmt, n.toNat, 0, [id], fmt.bps * SAMPLES⟩)
      (setBytes_inv h1 h4) hk' ?_ _ ?_
    · refine ⟨rfl, Nat.one_pos, rfl, rfl, rfl, rfl, rfl, by simp [ha], ?_, ?_⟩
      · intro k id' hk2
        cases k with
        | succ k => simp at hk2
        | zero =>
          simp only [List.getElem?_cons_zero, Option.some.injEq] at hk2
          subst hk2
          refine ⟨_, setPlane_set h4, ?_⟩
          simp only [SWorld.audio, List.getElem?_cons_zero, e2]
          congr 2
      · intro _
        refine ⟨rfl, by simp only; omega, ?_⟩
        intro p hp
        simp only [SWorld.audio, List.getElem?_cons_zero, Option.some.injEq] at hp
        rw [← hp]
    · intro tok htok
      refine ⟨htok, ?_⟩
      intro f j p hf hj hp _
      have hm := mem_heldOf hf (List.mem_of_getElem? hj)
      have hne : id ≠ j := fun h => h3 (h ▸ hm)
      simp only [PS.setPlane]
      rw [Heap.get_put_ne _ hne]
      exact h5 j p hp
  · right
    simp only [newAudio2, if_neg hc']
    simp only [blank]
    simp only [e, Res.bind_fatal]; rfl

theorem copyFrame_rel (r : Rel thr limit w s) {g : Nat} {sf : SFrame}
    (hg : s.frames.get g = some sf) :
    ∃ w', copyFrame w g = .ok (w', s.frames.length) ∧
      Rel thr limit w' ((s.add { sf with ref := 1 }).dropTokens g) := by
  obtain ⟨f, hf, hr⟩ := r.get hg
  obtain ⟨t, e, h1, h2, h3⟩ := addPlanes_ok f.data r.pinv (fun id hid => mem_heldOf hf hid)
  refine ⟨_, by simp only [copyFrame, frame, hf, Res.bind_ok, e, r.len]; rfl, ?_⟩
  have hr' := hr.keep h2 (fun id hid => mem_heldOf hf hid)
  refine r.addFrame (f := { f with ref := 1 }) h1 h2 ?_ _ ?_
  · exact ⟨rfl, Nat.one_pos, hr'.fmt, hr'.width, hr'.height, hr'.stride, hr'.len, hr'.shape,
      hr'.planes, hr'.audio⟩
  · intro tok htok
    simp only [SWorld.add, List.mem_filter, ne_eq, decide_not, Bool.not_eq_true',
      decide_eq_false_iff_not] at htok
    refine ⟨htok.1, ?_⟩
    intro f' j p hf' hj hp h1
    rw [h3 j]
    · exact hp
    · intro hm
      obtain ⟨k', hk'⟩ := List.getElem?_of_mem hm
      have hc : (heldOf w.frames).count j = 1 := by rw [← (r.pinv.live j p hp).1, h1]
      exact htok.2 (only_ref hc hf' hf hj hk').1

/-- Changing one frame cell together with the plane store. -/
theorem Rel.setFrame (r : Rel thr limit w s) {g : Nat} {f f' : Frame} {sf' : SFrame} {ps : PS}
    {toks : List Token} (hf : w.frames.get g = some f)
    (hp : PInv thr limit ps (heldOf (w.frames.put g (some f'))))
    (hk : ∀ g', g' ≠ g → ∀ f1 sf1, w.frames.get g' = some f1 → FRel w.ps f1 sf1 → FRel ps f1 sf1)
    (hr : FRel ps f' sf')
    (ht : ∀ t ∈ toks, ∃ f1 id p, (w.frames.put g (some f')).get t.frame = some f1 ∧
      f1.data[t.slot]? = some id ∧ ps.planes.get id = some p ∧ p.buf = t.buf ∧ p.ref = 1) :
    Rel thr limit { w with ps := ps, frames := w.frames.put g (some f') }
      { frames := s.frames.put g (some sf'), tokens := toks, align := s.align } := by
  have hlt := Heap.get_lt hf
  refine ⟨hp, r.align, by simp only [Heap.length_put, r.len], ?_, ?_, ht⟩
  · intro j f1 hj
    simp only at hj
    by_cases he : g = j
    · subst he
      rw [Heap.get_put_self _ hlt] at hj
      simp only [Option.some.injEq] at hj
      subst hj
      exact ⟨sf', Heap.get_put_self _ (by rw [r.len]; exact hlt), hr⟩
    · rw [Heap.get_put_ne _ he] at hj
      obtain ⟨sf1, h1, h2⟩ := r.found j f1 hj
      refine ⟨sf1, ?_, hk j (fun h => he h.symm) f1 sf1 hj h2⟩
      simp only
      rw [Heap.get_put_ne _ he]
      exact h1
  · intro j sf1 hj
    simp only at hj
    by_cases he : g = j
    · subst he
      exact ⟨f', Heap.get_put_self _ hlt⟩
    · rw [Heap.get_put_ne _ he] at hj
      obtain ⟨f1, h1⟩ := r.back j sf1 hj
      refine ⟨f1, ?_⟩
      simp only
      rw [Heap.get_put_ne _ he]
      exact h1

/-- Changing only the reference count of a frame. -/
theorem Rel.setRef (r : Rel thr limit w s) {g n : Nat} {f : Frame} {sf : SFrame}
    (hf : w.frames.get g = some f) (hr : FRel w.ps f sf) (hn : 0 < n) :
    Rel thr limit { w with frames := w.frames.put g (some { f with ref := n }) }
      { s with frames := s.frames.put g (some { sf with ref := n }) } := by
  refine r.setFrame (ps := w.ps) hf (r.pinv.perm (heldOf_put_same hf rfl))
    (fun _ _ _ _ _ h => h) ?_ ?_
  · exact ⟨rfl, hn, hr.fmt, hr.width, hr.height, hr.stride, hr.len, hr.shape, hr.planes, hr.audio⟩
  · intro t ht
    obtain ⟨f1, id, p, h1, h2, h3, h4, h5⟩ := r.tokens t ht
    by_cases he : g = t.frame
    · rw [← he] at h1 ⊢
      rw [hf] at h1
      simp only [Option.some.injEq] at h1
      subst h1
      exact ⟨_, id, p, Heap.get_put_self _ (Heap.get_lt hf), h2, h3, h4, h5⟩
    · exact ⟨f1, id, p, by rw [Heap.get_put_ne _ he]; exact h1, h2, h3, h4, h5⟩

theorem addRef_rel (r : Rel thr limit w s) {g : Nat} {sf : SFrame}
    (hg : s.frames.get g = some sf) :
    ∃ w', addRef w g = .ok w' ∧
      Rel thr limit w' { s with frames := s.frames.put g (some { sf with ref := sf.ref + 1 }) } := by
  obtain ⟨f, hf, hr⟩ := r.get hg
  refine ⟨_, by simp only [addRef, frame, hf, Res.bind_ok]; rfl, ?_⟩
  rw [hr.ref]
  exact r.setRef (n := f.ref + 1) hf hr (by omega)

theorem freeFrame_rel (r : Rel thr limit w s) {g : Nat} {sf : SFrame}
    (hg : s.frames.get g = some sf) :
    ∃ w', freeFrame w g = .ok w' ∧ Rel thr limit w'
      (if sf.ref = 1 then { s with frames := s.frames.put g none }.dropTokens g
       else { s with frames := s.frames.put g (some { sf with ref := sf.ref - 1 }) }) := by
  obtain ⟨f, hf, hr⟩ := r.get hg
  by_cases h1 : f.ref = 1
  · have h1' : sf.ref = 1 := by rw [hr.ref]; exact h1
    obtain ⟨rest, p1, p2⟩ := heldOf_put hf none
    simp only [refsOf, List.nil_append] at p2
    obtain ⟨t, e, q1, q2, q3⟩ := releasePlanes_ok f.data (held := rest) (r.pinv.perm p1.symm)
    refine ⟨_, by simp only [freeFrame, frame, hf, Res.bind_ok, if_pos h1, e]; rfl, ?_⟩
    rw [if_pos h1']
    have hlt := Heap.get_lt hf
    refine ⟨q1.perm p2, r.align, by simp only [SWorld.dropTokens, Heap.length_put, r.len], ?_, ?_, ?_⟩
    · intro j f1 hj
      simp only at hj
      by_cases he : g = j
      · subst he; rw [Heap.get_put_self _ hlt] at hj; simp at hj
      · have hj' := hj
        rw [Heap.get_put_ne _ he] at hj'
        obtain ⟨sf1, a1, a2⟩ := r.found j f1 hj'
        refine ⟨sf1, ?_, a2.keep q2 (fun id hid => p2.mem_iff.1 (mem_heldOf hj hid))⟩
        simp only [SWorld.dropTokens]
        rw [Heap.get_put_ne _ he]; exact a1
    · intro j sf1 hj
      simp only [SWorld.dropTokens] at hj
      by_cases he : g = j
      · subst he; rw [Heap.get_put_self _ (by rw [r.len]; exact hlt)] at hj; simp at hj
      · rw [Heap.get_put_ne _ he] at hj
        obtain ⟨f1, a1⟩ := r.back j sf1 hj
        refine ⟨f1, ?_⟩
        simp only
        rw [Heap.get_put_ne _ he]; exact a1
    · intro tok htok
      simp only [SWorld.dropTokens, List.mem_filter, ne_eq, decide_not, Bool.not_eq_true',
        decide_eq_false_iff_not] at htok
      obtain ⟨f1, id, p, a1, a2, a3, a4, a5⟩ := r.tokens tok htok.1
      refine ⟨f1, id, p, ?_, a2, ?_, a4, a5⟩
      · simp only
        rw [Heap.get_put_ne _ (fun h => htok.2 h.symm)]; exact a1
      · rw [q3 id]
        · exact a3
        · intro hm
          obtain ⟨k', hk'⟩ := List.getElem?_of_mem hm
          have hc : (heldOf w.frames).count id = 1 := by rw [← (r.pinv.live id p a3).1, a5]
          exact htok.2 (only_ref hc a1 hf a2 hk').1
  · have h1' : ¬ sf.ref = 1 := by rw [hr.ref]; exact h1
    refine ⟨_, by simp only [freeFrame, frame, hf, Res.bind_ok, if_neg h1]; rfl, ?_⟩
    rw [if_neg h1']
    have := hr.pos
    rw [hr.ref]
    exact r.setRef (n := f.ref - 1) hf hr (by omega)

theorem slot_lt {f : Frame} {sf : SFrame} {t : PS} (hr : FRel t f sf) {p : Int} (h0 : 0 ≤ p)
    (hp : p < f.fmt.numPlanes) : (f.slot p.toNat).1 < f.data.length := by
  rw [hr.shape]
  unfold Frame.slot
  split <;> simp_all <;> omega

theorem slot_eq {f : Frame} {sf : SFrame} {t : PS} (hr : FRel t f sf) (p : Nat) :
    sf.slot p = (f.slot p).1 := by
  unfold SFrame.slot Frame.slot
  rw [hr.fmt]
  split <;> rfl

/-- Add a licence. -/
theorem Rel.addToken (r : Rel thr limit w s) {t : Token}
    (h : ∃ f id p, w.frames.get t.frame = some f ∧ f.data[t.slot]? = some id ∧
      w.ps.planes.get id = some p ∧ p.buf = t.buf ∧ p.ref = 1) :
    Rel thr limit w { s with tokens := t :: s.tokens } := by
  refine ⟨r.pinv, r.align, r.len, r.found, r.back, ?_⟩
  intro t' ht
  rcases List.mem_cons.1 ht with e | e
  · rw [e]; exact h
  · exact r.tokens t' e

/-- The copy made by `getWritePtr`. -/
theorem unshare_rel (r : Rel thr limit w s) {g k id : Nat} {f : Frame} {p : Plane}
    (hf : w.frames.get g = some f) (hk : f.data[k]? = some id)
    (hp : w.ps.planes.get id = some p) (h1 : p.ref ≠ 1) :
    (∃ t t' id' buf, copyPlane w.ps id = .ok (t, id') ∧ releasePlane t id = .ok t' ∧
      t'.planes.get id' = some ⟨1, buf, p.size, p.bytes⟩ ∧
      Rel thr limit
        { w with ps := t', frames := w.frames.put g (some { f with data := f.data.set k id' }) } s) ∨
    copyPlane w.ps id = .fatal oom := by
  have hsz := (r.pinv.live id p hp).2.2
  obtain ⟨sf, hg, hr⟩ := r.found g f hf
  have hkl : k < f.data.length := by
    rcases Nat.lt_or_ge k f.data.length with h | h
    · exact h
    · rw [List.getElem?_eq_none h] at hk; simp at hk
  have ecp : copyPlane w.ps id = newPlane w.ps p.size p.bytes := by
    simp only [copyPlane, plane, hp, Res.bind_ok]
  rcases newPlane_total r.pinv (b := p.bytes) hsz with ⟨t, id', e⟩ | e
  · left
    obtain ⟨h1', h2, h3, ⟨buf, h4⟩, h5⟩ := newPlane_inv r.pinv hsz e
    have hidm : id ∈ f.data := List.mem_of_getElem? hk
    have hm : id ∈ heldOf w.frames := mem_heldOf hf hidm
    have hne : id' ≠ id := fun h => h3 (h ▸ hm)
    obtain ⟨rest, p1, p2⟩ := heldOf_put hf (some { f with data := f.data.set k id' })
    simp only [refsOf] at p2
    -- the references: one to `id` has been replaced by one to `id'`
    have hset : ∃ l, f.data.Perm (id :: l) ∧ (f.data.set k id').Perm (id' :: l) := by
      refine ⟨f.data.take k ++ f.data.drop (k + 1), ?_, ?_⟩
      · have e0 : f.data = f.data.take k ++ id :: f.data.drop (k + 1) := by
          have e1 := List.take_append_drop k f.data
          rw [List.drop_eq_getElem_cons hkl] at e1
          have e2 : f.data[k] = id := by
            rw [List.getElem?_eq_getElem hkl] at hk; simpa using hk
          rw [e2] at e1
          exact e1.symm
        exact (List.Perm.of_eq e0).trans List.perm_middle
      · rw [List.set_eq_take_append_cons_drop, if_pos hkl]
        exact List.perm_middle
    obtain ⟨l, l1, l2⟩ := hset
    have hp1 : PInv thr limit t (id :: (id' :: (l ++ rest))) := by
      refine h1'.perm ?_
      refine (List.Perm.swap id' id _).trans (List.Perm.cons _ ?_)
      exact (List.Perm.append_right rest l1).symm.trans p1.symm
    obtain ⟨t', e2, q1, q2, q3⟩ := releasePlane_inv hp1
    have hnew : t'.planes.get id' = some ⟨1, buf, p.size, p.bytes⟩ := by rw [q3 id' hne]; exact h4
    refine ⟨t, t', id', buf, by rw [ecp]; exact e, e2, hnew, ?_⟩
    have hheld : (heldOf (w.frames.put g (some { f with data := f.data.set k id' }))).Perm
        (id' :: (l ++ rest)) := p2.trans (List.Perm.append_right rest l2)
    have hkeep : Keeps w.ps t' (id' :: (l ++ rest)) := by
      intro j hj q hq
      exact q2 j hj q (h5 j q hq)
    have hpos : ∀ j p0, w.ps.planes.get j = some p0 → j ≠ id → t'.planes.get j = some p0 := by
      intro j p0 hj hjn
      rw [q3 j hjn]
      exact h5 j p0 hj
    -- the other frames see the same planes
    have hF : ∀ g', g' ≠ g → ∀ f1 sf1, w.frames.get g' = some f1 → FRel w.ps f1 sf1 →
        FRel t' f1 sf1 := by
      intro g' hg' f1 sf1 h1f hr1
      refine hr1.keep hkeep ?_
      intro j hj
      refine hheld.mem_iff.1 (mem_heldOf (i := g') ?_ hj)
      rw [Heap.get_put_ne _ (fun h => hg' h.symm)]
      exact h1f
    have hrel := r.setFrame (toks := s.tokens) (sf' := sf) (ps := t')
      (f' := { f with data := f.data.set k id' }) hf (q1.perm hheld) hF ?_ ?_
    · have es : s.frames.put g (some sf) = s.frames := by
        unfold Heap.put
        apply List.ext_getElem?
        intro j
        by_cases hj : g = j
        · subst hj
          have hlt := Heap.get_lt hg
          rw [List.getElem?_set_self hlt]
          have hg' := hg
          unfold Heap.get at hg'
          rw [List.getElem?_eq_getElem hlt] at hg' ⊢
          simpa using hg'.symm
        · rw [List.getElem?_set_ne hj]
      rw [es] at hrel
      exact hrel
    · refine ⟨hr.ref, hr.pos, hr.fmt, hr.width, hr.height, hr.stride, ?_, ?_, ?_, hr.audio⟩
      · simp only [List.length_set]; exact hr.len
      · simp only [List.length_set]; exact hr.shape
      · intro k' j hj
        by_cases hkk : k = k'
        · subst hkk
          simp only [List.getElem?_set_self hkl, Option.some.injEq] at hj
          subst hj
          refine ⟨_, hnew, ?_⟩
          obtain ⟨p', a1, a2⟩ := hr.planes k id hk
          rw [hp] at a1
          simp only [Option.some.injEq] at a1
          subst a1
          exact a2
        · simp only [List.getElem?_set_ne hkk] at hj
          obtain ⟨p', a1, a2⟩ := hr.planes k' j hj
          have hjm : j ∈ id' :: (l ++ rest) := by
            refine hheld.mem_iff.1 (mem_heldOf (i := g) (Heap.get_put_self _ (Heap.get_lt hf)) ?_)
            exact List.mem_of_getElem? (i := k') (by simp only [List.getElem?_set_ne hkk]; exact hj)
          obtain ⟨p'', b1, b2, b3, b4⟩ := hkeep j hjm p' a1
          exact ⟨p'', b1, by rw [b3, b4]; exact a2⟩
    · intro tok htok
      obtain ⟨f1, j, p0, a1, a2, a3, a4, a5⟩ := r.tokens tok htok
      have hjn : j ≠ id := by
        intro h
        rw [h, hp] at a3
        simp only [Option.some.injEq] at a3
        rw [← a3] at a5
        exact h1 a5
      have a3' := hpos j p0 a3 hjn
      by_cases he : g = tok.frame
      · rw [← he] at a1 ⊢
        rw [hf] at a1
        simp only [Option.some.injEq] at a1
        subst a1
        have hkk : k ≠ tok.slot := by
          intro h
          rw [h, a2] at hk
          simp only [Option.some.injEq] at hk
          exact hjn hk
        exact ⟨_, j, p0, Heap.get_put_self _ (Heap.get_lt hf),
          by simp only [List.getElem?_set_ne hkk]; exact a2, a3', a4, a5⟩
      · exact ⟨f1, j, p0, by rw [Heap.get_put_ne _ he]; exact a1, a2, a3', a4, a5⟩
  · right
    rw [ecp]; exact e

theorem getWritePtr_rel (r : Rel thr limit w s) {g : Nat} {p : Int} {sf : SFrame}
    (hg : s.frames.get g = some sf) :
    (∃ w', getWritePtr w g p = .ok (w', none) ∧ (p < 0 ∨ p ≥ sf.fmt.numPlanes) ∧
      Rel thr limit w' s) ∨
    (∃ w' a, getWritePtr w g p = .ok (w', some a) ∧ 0 ≤ p ∧ p < sf.fmt.numPlanes ∧
      a.off = (if sf.fmt.audio = true then p.toNat * sf.stride else 0) ∧
      Rel thr limit w' { s with tokens := ⟨a.buf, g, sf.slot p.toNat⟩ :: s.tokens }) ∨
    getWritePtr w g p = .fatal oom := by
  obtain ⟨f, hf, hr⟩ := r.get hg
  by_cases hp : p < 0 ∨ p ≥ f.fmt.numPlanes
  · left
    exact ⟨w, by simp only [getWritePtr, frame, hf, Res.bind_ok, if_pos hp], by rw [hr.fmt]; exact hp, r⟩
  · right
    have hlt := slot_lt hr (p := p) (by omega) (by omega)
    have hd : f.data[(f.slot p.toNat).1]? = some f.data[(f.slot p.toNat).1] :=
      List.getElem?_eq_getElem hlt
    obtain ⟨q, hq, _⟩ := hr.planes _ _ hd
    have hoff : (f.slot p.toNat).2 = (if sf.fmt.audio = true then p.toNat * sf.stride else 0) := by
      unfold Frame.slot
      rw [hr.fmt, hr.stride]
      split <;> rfl
    by_cases h1 : q.ref = 1
    · left
      refine ⟨w, ⟨q.buf, (f.slot p.toNat).2⟩, ?_, by omega, by rw [hr.fmt]; omega, hoff, ?_⟩
      · simp only [getWritePtr, frame, hf, Res.bind_ok, if_neg hp, makeUnique, dataOf, hd, plane, hq,
          if_pos h1]
      · refine r.addToken ⟨f, _, q, hf, ?_, hq, rfl, h1⟩
        simp only [slot_eq hr]
        exact hd
    · rcases unshare_rel r hf hd hq h1 with ⟨t, t', id', buf, e1, e2, e3, hr'⟩ | e
      · left
        refine ⟨{ w with ps := t', frames := w.frames.put g (some { f with data := f.data.set (f.slot p.toNat).1 id' }) },
          ⟨buf, (f.slot p.toNat).2⟩, ?_, by omega, by rw [hr.fmt]; omega, hoff, ?_⟩
        · simp only [getWritePtr, frame, hf, Res.bind_ok, if_neg hp, makeUnique, dataOf, hd, plane,
            hq, if_neg h1, e1, e2, e3]
        · refine hr'.addToken ⟨{ f with data := f.data.set (f.slot p.toNat).1 id' }, id', _,
            Heap.get_put_self _ (Heap.get_lt hf), ?_, e3, rfl, rfl⟩
          simp only [slot_eq hr]
          exact List.getElem?_set_self hlt
      · right
        simp only [getWritePtr, frame, hf, Res.bind_ok, if_neg hp, makeUnique, dataOf, hd, plane,
            hq, if_neg h1, e, Res.bind_fatal]

theorem store_rel (r : Rel thr limit w s) {a : Ptr} {v : Nat} {t : Token} {sf : SFrame}
    {sp : SPlane} (ht : s.tokens.find? (fun t => t.buf = a.buf) = some t)
    (hg : s.frames.get t.frame = some sf) (hs : sf.planes[t.slot]? = some sp)
    (ho : a.off < sp.size) :
    ∃ w', store w a v = .ok w' ∧
      Rel thr limit w' { s with frames := s.frames.put t.frame (some (sf.write t.slot a.off v)) } := by
  have hm := List.mem_of_find?_eq_some ht
  have hb : t.buf = a.buf := by simpa using List.find?_some ht
  obtain ⟨f, id, p, h1, h2, h3, h4, h5⟩ := r.tokens t hm
  obtain ⟨f', hf', hr⟩ := r.get hg
  rw [h1] at hf'
  simp only [Option.some.injEq] at hf'
  subst hf'
  have hfind : findBuf a.buf w.ps.planes 0 = some id := by
    have := findBuf_eq (k := 0) h3 (h4.trans hb)
      (fun j q hj hq => bufs_unique r.pinv.nodup hj h3 (hq.trans (h4.trans hb).symm))
    simpa using this
  obtain ⟨p', g1, g2⟩ := hr.planes _ _ h2
  rw [h3] at g1
  simp only [Option.some.injEq] at g1
  subst g1
  rw [hs] at g2
  simp only [Option.some.injEq] at g2
  subst g2
  have hc : (heldOf w.frames).count id = 1 := by rw [← (r.pinv.live id p h3).1, h5]
  have hother : ∀ j, j ≠ id → ∀ b, (w.ps.setPlane id { p with bytes := b }).planes.get j =
      w.ps.planes.get j := fun j hj b => Heap.get_put_ne _ (fun h => hj h.symm)
  refine ⟨_, by simp only [store, hfind, h3]; rw [if_pos ho], ?_⟩
  have hsl : t.slot < sf.planes.length := by
    rcases Nat.lt_or_ge t.slot sf.planes.length with h | h
    · exact h
    · rw [List.getElem?_eq_none h] at hs; simp at hs
  have hw : sf.write t.slot a.off v = { sf with planes := sf.planes.set t.slot (SPlane.mk p.size (fun i => if i = a.off then v else p.bytes i)) } := by
    simp only [SFrame.write, hs]
  have hself : w.frames.put t.frame (some f) = w.frames := by
    have hlt := Heap.get_lt h1
    unfold Heap.put
    apply List.ext_getElem?
    intro j
    by_cases hj : t.frame = j
    · subst hj
      rw [List.getElem?_set_self hlt]
      have h1' := h1
      unfold Heap.get at h1'
      rw [List.getElem?_eq_getElem hlt] at h1' ⊢
      simpa using h1'.symm
    · rw [List.getElem?_set_ne hj]
  have hrel := r.setFrame (toks := s.tokens) (f' := f) (sf' := sf.write t.slot a.off v)
    (ps := w.ps.setPlane id { p with bytes := fun i => if i = a.off then v else p.bytes i }) h1
    (by rw [hself]; exact setBytes_inv r.pinv h3) ?_ ?_ ?_
  · rw [hself] at hrel
    exact hrel
  · intro g' hne f1 sf1 hf1 hr1
    refine ⟨hr1.ref, hr1.pos, hr1.fmt, hr1.width, hr1.height, hr1.stride, hr1.len, hr1.shape, ?_,
      hr1.audio⟩
    intro k j hk
    obtain ⟨q, q1, q2⟩ := hr1.planes k j hk
    have hjn : j ≠ id := by
      intro h
      rw [h] at hk
      exact hne (only_ref hc hf1 h1 hk h2).1
    exact ⟨q, by rw [hother j hjn]; exact q1, q2⟩
  · rw [hw]
    refine ⟨hr.ref, hr.pos, hr.fmt, hr.width, hr.height, hr.stride, ?_, hr.shape, ?_, ?_⟩
    · simp only [List.length_set]; exact hr.len
    · intro k j hk
      by_cases hkk : t.slot = k
      · subst hkk
        rw [h2] at hk
        simp only [Option.some.injEq] at hk
        subst hk
        exact ⟨_, setPlane_set h3, by simp only [List.getElem?_set_self hsl]⟩
      · obtain ⟨q, q1, q2⟩ := hr.planes k j hk
        have hjn : j ≠ id := by
          intro h
          rw [h] at hk
          exact hkk (only_ref hc h1 h1 h2 hk).2
        exact ⟨q, by rw [hother j hjn]; exact q1, by simp only [List.getElem?_set_ne hkk]; exact q2⟩
    · intro hau
      obtain ⟨a1, a2, a3⟩ := hr.audio hau
      refine ⟨a1, a2, ?_⟩
      intro q hq
      simp only at hq
      by_cases hz : t.slot = 0
      · rw [hz, List.getElem?_set_self (by omega)] at hq
        simp only [Option.some.injEq] at hq
        rw [← hq]
        rw [hz] at hs
        have hsz := a3 _ hs
        exact hsz
      · rw [List.getElem?_set_ne hz] at hq
        exact a3 q hq
  · intro tok htok
    rw [hself]
    obtain ⟨f1, j, q, a1, a2, a3, a4, a5⟩ := r.tokens tok htok
    by_cases hj : j = id
    · subst hj
      rw [h3] at a3
      simp only [Option.some.injEq] at a3
      subst a3
      exact ⟨f1, j, _, a1, a2, setPlane_set h3, a4, a5⟩
    · exact ⟨f1, j, q, a1, a2, by rw [hother j hj]; exact a3, a4, a5⟩

theorem shareSrcs_none (s : SWorld) (n : Nat) : s.shareSrcs (List.replicate n none) = s := by
  unfold SWorld.shareSrcs
  have : ∀ t : Token, (!((List.replicate n (none : Src)).any (fun src => match src with
        | none => false
        | some (g, p) => t.frame = g && t.slot = p.toNat))) = true := by
    intro t
    simp only [Bool.not_eq_true', List.any_eq_false]
    intro src hs
    rw [List.eq_of_mem_replicate hs]
    simp
  have h2 := List.filter_eq_self.2 (fun t (_ : t ∈ s.tokens) => this t)
  cases s
  simp only [SWorld.mk.injEq, true_and, and_true]
  exact h2

/-- Every legal call works, or the system is out of memory; both worlds stay in step. -/
theorem step_rel (r : Rel thr limit w s) {op : Op} (hl : s.Legal op) :
    (∃ w' out, step w op = .ok (w', out) ∧ Rel thr limit w' (s.next op out)) ∨
    step w op = .fatal oom := by
  cases op with
  | newVideo fmt x y junk =>
    obtain ⟨h1, h2, h3, h4, h5⟩ := hl
    rcases newVideo2_rel r (srcs := List.replicate fmt.numPlanes none) (junk := junk) h1 h2 h3
      (by simp) (by intro i hi; simp only [List.getElem_replicate]; exact h5 i (by simpa using hi))
      with ⟨w', e, hr⟩ | e
    · left
      rw [shareSrcs_none] at hr
      exact ⟨w', _, by simp only [step, newVideo, made, e, Res.bind_ok]; rfl, hr⟩
    · exact Or.inr (by simp only [step, newVideo, made, e, Res.bind_fatal])
  | newVideo2 fmt x y srcs junk =>
    obtain ⟨h1, h2, h3, h4, h5, h6⟩ := hl
    rcases newVideo2_rel r (junk := junk) h1 h2 h3 h5 h6 with ⟨w', e, hr⟩ | e
    · exact Or.inl ⟨w', _, by simp only [step, made, e, Res.bind_ok]; rfl, hr⟩
    · exact Or.inr (by simp only [step, made, e, Res.bind_fatal])
  | newAudio fmt n junk =>
    obtain ⟨h1, h2, h3, h4, h5, h6, h7⟩ := hl
    rcases newAudio2_rel r (srcs := []) (junk := junk) h1 h2 h3 h5 h6 h7 (by simp) (by simp)
      with ⟨w', e, hr⟩ | e
    · exact Or.inl ⟨w', _, by simp only [step, newAudio, made, e, Res.bind_ok]; rfl, hr⟩
    · exact Or.inr (by simp only [step, newAudio, made, e, Res.bind_fatal])
  | newAudio2 fmt n srcs junk =>
    obtain ⟨h1, h2, h3, h4, h5, h6, h7, h8, h9⟩ := hl
    rcases newAudio2_rel r (srcs := srcs) (junk := junk) h1 h2 h3 h5 h6 h7 (by omega) h9
      with ⟨w', e, hr⟩ | e
    · exact Or.inl ⟨w', _, by simp only [step, made, e, Res.bind_ok]; rfl, hr⟩
    · exact Or.inr (by simp only [step, made, e, Res.bind_fatal])
  | copyFrame g =>
    obtain ⟨sf, hg⟩ := Option.isSome_iff_exists.1 hl
    obtain ⟨w', e, hr⟩ := copyFrame_rel r hg
    exact Or.inl ⟨w', _, by simp only [step, made, e, Res.bind_ok]; rfl,
      by simp only [SWorld.next, hg]; exact hr⟩
  | addRef g =>
    obtain ⟨sf, hg⟩ := Option.isSome_iff_exists.1 hl
    obtain ⟨w', e, hr⟩ := addRef_rel r hg
    exact Or.inl ⟨w', _, by simp only [step, quiet, e, Res.bind_ok]; rfl,
      by simp only [SWorld.next, hg]; exact hr⟩
  | freeFrame g =>
    obtain ⟨sf, hg⟩ := Option.isSome_iff_exists.1 hl
    obtain ⟨w', e, hr⟩ := freeFrame_rel r hg
    exact Or.inl ⟨w', _, by simp only [step, quiet, e, Res.bind_ok]; rfl,
      by simp only [SWorld.next, hg]; exact hr⟩
  | getWritePtr g p =>
    obtain ⟨sf, hg⟩ := Option.isSome_iff_exists.1 hl
    rcases getWritePtr_rel r (p := p) hg with ⟨w', e, _, hr⟩ | ⟨w', a, e, _, _, _, hr⟩ | e
    · exact Or.inl ⟨w', .ptr none, by simp only [step, e, Res.bind_ok], hr⟩
    · exact Or.inl ⟨w', .ptr (some a), by simp only [step, e, Res.bind_ok],
        by simp only [SWorld.next, hg]; exact hr⟩
    · exact Or.inr (by simp only [step, e, Res.bind_fatal])
  | store a v =>
    obtain ⟨t, sf, sp, ht, hg, hs, ho⟩ := hl
    obtain ⟨w', e, hr⟩ := store_rel r (v := v) ht hg hs ho
    exact Or.inl ⟨w', _, by simp only [step, quiet, e, Res.bind_ok]; rfl,
      by simp only [SWorld.next, ht, hg]; exact hr⟩

theorem reach_rel {align : Nat} {sys : List (Option Nat)} {rnd : List (List Nat)}
    (h : Reach thr limit align sys rnd w s) : Rel thr limit w s := by
  induction h with
  | start =>
    refine ⟨⟨?_, ?_, ?_⟩, rfl, rfl, ?_, ?_, ?_⟩
    · intro id p hp; simp [World.start, Heap.get] at hp
    · intro id _; simp [World.start, heldOf]
    · exact ⟨_, Memory.Reach.new, rfl, by simp [World.start, bufsOf]⟩
    · intro g f hf; simp [World.start, Heap.get] at hf
    · intro g sf hf; simp [Heap.get] at hf
    · intro t ht; simp at ht
  | call _ hl e ih =>
    rcases step_rel ih hl with ⟨w', out, e', hr⟩ | e'
    · rw [e] at e'
      simp only [Res.ok.injEq, Prod.mk.injEq] at e'
      obtain ⟨rfl, rfl⟩ := e'
      exact hr
    · rw [e] at e'; simp at e'

end VS.Frame
