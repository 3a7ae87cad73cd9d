import Verif.Frame.LemmasStep

/-! Helper lemmas for the property theorems. -/

namespace VS.Frame
open VS

variable {thr limit align : Nat} {sys : List (Option Nat)} {rnd : List (List Nat)}
  {w : World} {s : SWorld}

theorem readByte_eq (r : Rel thr limit w s) {g : Nat} {sf : SFrame}
    (hg : s.frames.get g = some sf) {p : Int} (h0 : 0 ≤ p) (hp : p < sf.fmt.numPlanes) {off : Nat}
    {sp : SPlane} (hs : sf.planes[sf.slot p.toNat]? = some sp) :
    readByte w g p off =
      if (if sf.fmt.audio = true then p.toNat * sf.stride else 0) + off < sp.size then
        .ok (some (sp.bytes ((if sf.fmt.audio = true then p.toNat * sf.stride else 0) + off)))
      else .ub := by
  obtain ⟨f, hf, hr⟩ := r.get hg
  rw [hr.fmt] at hp
  have hlt := slot_lt hr (p := p) h0 hp
  have hd : f.data[(f.slot p.toNat).1]? = some f.data[(f.slot p.toNat).1] :=
    List.getElem?_eq_getElem hlt
  obtain ⟨q, hq, hq2⟩ := hr.planes _ _ hd
  rw [slot_eq hr, hq2] at hs
  simp only [Option.some.injEq] at hs
  subst hs
  have hoff : (f.slot p.toNat).2 = (if sf.fmt.audio = true then p.toNat * sf.stride else 0) := by
    unfold Frame.slot
    rw [hr.fmt, hr.stride]
    split <;> rfl
  simp only [readByte, frame, hf, Res.bind_ok]
  rw [if_neg (by omega)]
  simp only [dataOf, hd, Res.bind_ok, plane, hq, hoff]

theorem plane_exists (r : Rel thr limit w s) {g : Nat} {sf : SFrame}
    (hg : s.frames.get g = some sf) {p : Int} (h0 : 0 ≤ p) (hp : p < sf.fmt.numPlanes) :
    ∃ sp, sf.planes[sf.slot p.toNat]? = some sp := by
  obtain ⟨f, hf, hr⟩ := r.get hg
  rw [hr.fmt] at hp
  have hlt := slot_lt hr (p := p) h0 hp
  rw [← hr.len, ← slot_eq hr] at hlt
  exact ⟨_, List.getElem?_eq_getElem hlt⟩

theorem rel_getWritePtr (r : Rel thr limit w s) {g : Nat} {p : Int} {a : Ptr} {w1 : World}
    (hg : step w (.getWritePtr g p) = .ok (w1, .ptr (some a))) {sf : SFrame}
    (hsf : s.frames.get g = some sf) : 0 ≤ p ∧ p < sf.fmt.numPlanes ∧
      a.off = (if sf.fmt.audio = true then p.toNat * sf.stride else 0) ∧
      Rel thr limit w1 { s with tokens := ⟨a.buf, g, sf.slot p.toNat⟩ :: s.tokens } := by
  rcases getWritePtr_rel r (p := p) hsf with ⟨w', e, _, _⟩ | ⟨w', a', e, h1, h2, h3, h4⟩ | e
  · simp [step, e] at hg
  · simp only [step, e, Res.bind_ok, Res.ok.injEq, Prod.mk.injEq, Out.ptr.injEq,
      Option.some.injEq] at hg
    obtain ⟨rfl, rfl⟩ := hg
    exact ⟨h1, h2, h3, h4⟩
  · simp [step, e] at hg

/-- All planes of a video frame have their full size. -/
def Full (align : Nat) (f : SFrame) : Prop :=
  f.fmt.audio = false → ∀ k q, f.planes[k]? = some q →
    q.size = videoSize align f.fmt f.width f.height k

theorem ReachD.reach (h : ReachD thr limit align sys rnd w s) :
    Reach thr limit align sys rnd w s := by
  induction h with
  | start => exact Reach.start
  | call _ hl _ e ih => exact Reach.call ih hl e

theorem initials_get (s : SWorld) (size : Nat → Nat) (junk : Nat → Nat → Nat) (srcs : List Src) :
    ∀ i k q, (s.initials size junk i srcs)[k]? = some q →
      ∃ src, srcs[k]? = some src ∧ q = s.initial size junk (i + k) src := by
  induction srcs with
  | nil => intro i k q h; simp [SWorld.initials] at h
  | cons a t ih =>
    intro i k q h
    cases k with
    | zero =>
      simp only [SWorld.initials, List.getElem?_cons_zero, Option.some.injEq] at h
      exact ⟨a, rfl, h.symm⟩
    | succ k =>
      simp only [SWorld.initials, List.getElem?_cons_succ] at h
      obtain ⟨src, h1, h2⟩ := ih (i + 1) k q h
      exact ⟨src, h1, by rw [h2]; congr 1; omega⟩

/-- The step of the induction. -/
theorem full_next {out : Out} (r : Rel thr limit w s) {op : Op} (hl : s.Legal op)
    (hd : s.SameDepth op) (hf : ∀ g f, s.frames.get g = some f → Full s.align f) :
    (s.next op out).align = s.align ∧
    ∀ g f, (s.next op out).frames.get g = some f → Full s.align f := by
  have hadd : ∀ (f0 : SFrame), Full s.align f0 →
      ∀ g f, (s.frames.alloc f0).get g = some f → Full s.align f := by
    intro f0 h0 g f hg
    by_cases he : g = s.frames.length
    · subst he
      rw [Heap.get_alloc_self] at hg
      simp only [Option.some.injEq] at hg
      rw [← hg]; exact h0
    · rw [Heap.get_alloc_ne he] at hg
      exact hf g f hg
  have hput : ∀ (g0 : Nat) (o : Option SFrame), (∀ f, o = some f → Full s.align f) →
      ∀ g f, (s.frames.put g0 o).get g = some f → Full s.align f := by
    intro g0 o h0 g f hg
    by_cases he : g0 = g
    · subst he
      by_cases hlt : g0 < s.frames.length
      · rw [Heap.get_put_self _ hlt] at hg
        exact h0 f hg
      · have : (s.frames.put g0 o).get g0 = none := by
          apply Heap.get_of_ge
          rw [Heap.length_put]; omega
        rw [this] at hg; simp at hg
    · rw [Heap.get_put_ne _ he] at hg
      exact hf g f hg
  have hvideo : ∀ fmt x y srcs junk, fmt.audio = false → 
      (∀ i (h : i < srcs.length), s.LegalSrc fmt x y i srcs[i]) →
      (∀ g p, some (g, p) ∈ srcs → ∀ f, s.frames.get g = some f → f.fmt.bps = fmt.bps) →
      Full s.align (s.video fmt x y srcs junk) := by
    intro fmt x y srcs junk ha hls hds _ k q hq
    obtain ⟨src, h1, h2⟩ := initials_get s _ _ srcs 0 k q hq
    have hk : k < srcs.length := by
      rcases Nat.lt_or_ge k srcs.length with h | h
      · exact h
      · rw [List.getElem?_eq_none h] at h1; simp at h1
    have h3 := hls k hk
    have h4 : srcs[k] = src := by
      rw [List.getElem?_eq_getElem hk] at h1; simpa using h1
    rw [h4] at h3
    rw [Nat.zero_add] at h2
    show q.size = videoSize s.align fmt x y k
    cases src with
    | none => rw [h2]; rfl
    | some gp =>
      obtain ⟨g, p⟩ := gp
      obtain ⟨f, hg, g1, g2, g3, g4, g5⟩ := h3
      obtain ⟨sp, hsp⟩ := plane_exists r hg g2 g3
      have hsl : f.slot p.toNat = p.toNat := by simp [SFrame.slot, g1]
      rw [hsl] at hsp
      have e1 : q = sp := by
        rw [h2]; simp only [SWorld.initial, hg]
        rw [List.getD_eq_getElem?_getD, hsp]; rfl
      rw [e1, hf g f hg g1 _ _ hsp]
      unfold videoSize
      rw [g4, g5, hds g p (List.mem_of_getElem? h1) f hg]
  have haudio : ∀ fmt n srcs junk, fmt.audio = true →
      Full s.align (s.audio fmt n srcs junk) := by
    intro fmt n srcs junk ha h
    simp [SWorld.audio, ha] at h
  cases op with
  | newVideo fmt x y junk =>
    obtain ⟨h1, h2, h3, h4, h5⟩ := hl
    refine ⟨rfl, hadd _ (hvideo _ _ _ _ _ h1 ?_ ?_)⟩
    · intro i hi
      simp only [List.getElem_replicate]
      exact h5 i (by simpa using hi)
    · intro g p hm
      have := List.eq_of_mem_replicate hm
      simp at this
  | newVideo2 fmt x y srcs junk =>
    obtain ⟨h1, h2, h3, h4, h5, h6⟩ := hl
    exact ⟨rfl, hadd _ (hvideo _ _ _ _ _ h1 h6 hd)⟩
  | newAudio fmt n junk => exact ⟨rfl, hadd _ (haudio _ _ _ _ hl.1)⟩
  | newAudio2 fmt n srcs junk => exact ⟨rfl, hadd _ (haudio _ _ _ _ hl.1)⟩
  | copyFrame g =>
    obtain ⟨sf, hg⟩ := Option.isSome_iff_exists.1 hl
    simp only [SWorld.next, hg]
    exact ⟨rfl, hadd _ (hf g sf hg)⟩
  | addRef g =>
    obtain ⟨sf, hg⟩ := Option.isSome_iff_exists.1 hl
    simp only [SWorld.next, hg]
    refine ⟨trivial, hput _ _ ?_⟩
    intro f e
    simp only [Option.some.injEq] at e
    rw [← e]; exact hf g sf hg
  | freeFrame g =>
    obtain ⟨sf, hg⟩ := Option.isSome_iff_exists.1 hl
    simp only [SWorld.next, hg]
    split
    · exact ⟨rfl, hput _ _ (by simp)⟩
    · refine ⟨rfl, hput _ _ ?_⟩
      intro f e
      simp only [Option.some.injEq] at e
      rw [← e]; exact hf g sf hg
  | getWritePtr g p =>
    obtain ⟨sf, hg⟩ := Option.isSome_iff_exists.1 hl
    cases out with
    | none => exact ⟨rfl, hf⟩
    | frame _ => exact ⟨rfl, hf⟩
    | ptr o =>
      cases o with
      | none => exact ⟨rfl, hf⟩
      | some a => simp only [SWorld.next, hg]; exact ⟨trivial, hf⟩
  | store a v =>
    obtain ⟨t, sf, sp, ht, hg, hs, _⟩ := hl
    simp only [SWorld.next, ht, hg]
    refine ⟨trivial, hput _ _ ?_⟩
    intro f e
    simp only [Option.some.injEq] at e
    subst e
    intro ha k q hq
    simp only [SFrame.write, hs] at ha hq ⊢
    by_cases hk : t.slot = k
    · subst hk
      have hlt : t.slot < sf.planes.length := by
        rcases Nat.lt_or_ge t.slot sf.planes.length with h | h
        · exact h
        · rw [List.getElem?_eq_none h] at hs; simp at hs
      rw [List.getElem?_set_self hlt] at hq
      simp only [Option.some.injEq] at hq
      rw [← hq]
      have hsz := hf _ _ hg ha _ _ hs
      exact hsz
    · rw [List.getElem?_set_ne hk] at hq
      exact hf _ _ hg ha _ _ hq

theorem reachD_full (h : ReachD thr limit align sys rnd w s) :
    s.align = align ∧ ∀ g f, s.frames.get g = some f → Full align f := by
  induction h with
  | start => exact ⟨rfl, fun g f hg => by simp [Heap.get] at hg⟩
  | call h hl hd e ih =>
    obtain ⟨ia, ib⟩ := ih
    subst ia
    exact full_next (reach_rel h.reach) hl hd ib

theorem reach_stride (h : Reach thr limit align sys rnd w s) : ∀ g f, s.frames.get g = some f →
    f.fmt.audio = false → f.stride = strideOf align f.width f.fmt.bps := by
  suffices hh : s.align = align ∧ ∀ g f, s.frames.get g = some f →
      f.fmt.audio = false → f.stride = strideOf align f.width f.fmt.bps from hh.2
  induction h with
  | start => exact ⟨rfl, fun g f hg => by simp [Heap.get] at hg⟩
  | @call w w' s op out h hl e ih =>
    obtain ⟨ia, ib⟩ := ih
    have hadd : ∀ (f0 : SFrame), (f0.fmt.audio = false → f0.stride = strideOf align f0.width f0.fmt.bps) →
        ∀ g f, (s.frames.alloc f0).get g = some f → f.fmt.audio = false →
          f.stride = strideOf align f.width f.fmt.bps := by
      intro f0 h0 g f hg
      by_cases he : g = s.frames.length
      · subst he
        rw [Heap.get_alloc_self] at hg
        simp only [Option.some.injEq] at hg
        rw [← hg]; exact h0
      · rw [Heap.get_alloc_ne he] at hg
        exact ib g f hg
    have hput : ∀ (g0 : Nat) (o : Option SFrame), (∀ f, o = some f → f.fmt.audio = false →
        f.stride = strideOf align f.width f.fmt.bps) →
        ∀ g f, (s.frames.put g0 o).get g = some f → f.fmt.audio = false →
          f.stride = strideOf align f.width f.fmt.bps := by
      intro g0 o h0 g f hg
      by_cases he : g0 = g
      · subst he
        by_cases hlt : g0 < s.frames.length
        · rw [Heap.get_put_self _ hlt] at hg
          exact h0 f hg
        · have : (s.frames.put g0 o).get g0 = none := by
            apply Heap.get_of_ge
            rw [Heap.length_put]; omega
          rw [this] at hg; simp at hg
      · rw [Heap.get_put_ne _ he] at hg
        exact ib g f hg
    cases op with
    | newVideo fmt x y junk => exact ⟨ia, hadd _ (fun _ => by simp only [SWorld.video, ia])⟩
    | newVideo2 fmt x y srcs junk => exact ⟨ia, hadd _ (fun _ => by simp only [SWorld.video, ia])⟩
    | newAudio fmt n junk => exact ⟨ia, hadd _ (fun hh => by have := hl.1; simp [SWorld.audio, this] at hh)⟩
    | newAudio2 fmt n srcs junk => exact ⟨ia, hadd _ (fun hh => by have := hl.1; simp [SWorld.audio, this] at hh)⟩
    | copyFrame g =>
      obtain ⟨sf, hg⟩ := Option.isSome_iff_exists.1 hl
      simp only [SWorld.next, hg]
      exact ⟨ia, hadd _ (ib g sf hg)⟩
    | addRef g =>
      obtain ⟨sf, hg⟩ := Option.isSome_iff_exists.1 hl
      simp only [SWorld.next, hg]
      refine ⟨ia, hput _ _ ?_⟩
      intro f e
      simp only [Option.some.injEq] at e
      rw [← e]; exact ib g sf hg
    | freeFrame g =>
      obtain ⟨sf, hg⟩ := Option.isSome_iff_exists.1 hl
      simp only [SWorld.next, hg]
      split
      · exact ⟨ia, hput _ _ (by simp)⟩
      · refine ⟨ia, hput _ _ ?_⟩
        intro f e
        simp only [Option.some.injEq] at e
        rw [← e]; exact ib g sf hg
    | getWritePtr g p =>
      obtain ⟨sf, hg⟩ := Option.isSome_iff_exists.1 hl
      cases out with
      | none => exact ⟨ia, ib⟩
      | frame _ => exact ⟨ia, ib⟩
      | ptr o =>
        cases o with
        | none => exact ⟨ia, ib⟩
        | some a => simp only [SWorld.next, hg]; exact ⟨ia, ib⟩
    | store a v =>
      obtain ⟨t, sf, sp, ht, hg, hs, _⟩ := hl
      simp only [SWorld.next, ht, hg]
      refine ⟨ia, hput _ _ ?_⟩
      intro f e
      simp only [Option.some.injEq] at e
      subst e
      simp only [SFrame.write, hs]
      exact ib _ _ hg

theorem sourcePlane_fatal (r : Rel thr limit w s) {f : Frame} {i g : Nat} {p : Int}
    (hl : s.LiveSrc f.fmt f.width f.height i (some (g, p)))
    (hn : ¬ s.LegalSrc f.fmt f.width f.height i (some (g, p))) :
    ∃ m, sourcePlane w f i g p = .fatal m := by
  obtain ⟨sf, h1, h2⟩ := hl
  obtain ⟨f', hf, hr⟩ := r.get h1
  simp only [sourcePlane, frame, hf, Res.bind_ok]
  by_cases c1 : p < 0 ∨ p ≥ f'.fmt.numPlanes
  · exact ⟨_, if_pos c1⟩
  · rw [if_neg c1]
    by_cases c2 : f'.heightOf p.toNat ≠ f.heightOf i ∨ f'.widthOf p.toNat ≠ f.widthOf i
    · exact ⟨_, if_pos c2⟩
    · exfalso
      apply hn
      simp only [ne_eq, not_or, Classical.not_not] at c2
      refine ⟨sf, h1, h2, by omega, by rw [hr.fmt]; omega, ?_, ?_⟩
      · have := c2.2
        simp only [Frame.widthOf, ← hr.width, ← hr.fmt] at this
        exact this
      · have := c2.1
        simp only [Frame.heightOf, ← hr.height, ← hr.fmt] at this
        exact this

theorem buildPlanes_bad (r : Rel thr limit w s) {f : Frame} {junk : Nat → Nat → Nat}
    (srcs : List Src) : ∀ {t : PS} {acc : List Nat} {i : Nat},
    PInv thr limit t (acc ++ heldOf w.frames) → Keeps w.ps t (heldOf w.frames) →
    (∀ k (h : k < srcs.length), s.LiveSrc f.fmt f.width f.height (i + k) srcs[k]) →
    (∀ k (h : k < srcs.length), s.LegalSrc f.fmt f.width f.height (i + k) srcs[k]) ∨
    ∃ m, buildPlanes w f junk t i srcs = .fatal m := by
  induction srcs with
  | nil => intro t acc i _ _ _; exact Or.inl (fun k h => by simp at h)
  | cons src rest ih =>
    intro t acc i hp hk hl
    have hl0 := hl 0 (by simp)
    simp only [List.getElem_cons_zero, Nat.add_zero] at hl0
    by_cases hc : s.LegalSrc f.fmt f.width f.height i src
    · rcases buildPlane_ok r (junk := junk) hp hk hc with ⟨t1, id, p, e1, h1, h2, h3, h4, h5⟩ | e1
      · have hk1 : Keeps w.ps t1 (heldOf w.frames) := by
          intro j hj q hq
          obtain ⟨q1, a1, a2, a3, a4⟩ := hk j hj q hq
          obtain ⟨q2, b1, b2, b3, b4⟩ := h2 j (List.mem_append.2 (Or.inr hj)) q1 a1
          exact ⟨q2, b1, b2.trans a2, b3.trans a3, b4.trans a4⟩
        have hl1 : ∀ k (h : k < rest.length), s.LiveSrc f.fmt f.width f.height (i + 1 + k) rest[k] := by
          intro k hk'
          have := hl (k + 1) (by simp; omega)
          simp only [List.getElem_cons_succ] at this
          have e : i + (k + 1) = i + 1 + k := by omega
          rw [e] at this
          exact this
        have h1' : PInv thr limit t1 ((id :: acc) ++ heldOf w.frames) := by simpa using h1
        rcases ih (acc := id :: acc) (i := i + 1) h1' hk1 hl1 with hall | ⟨m, e2⟩
        · left
          intro k hk'
          cases k with
          | zero => exact hc
          | succ k =>
            have := hall k (by simpa using hk')
            have e : i + (k + 1) = i + 1 + k := by omega
            rw [e]
            exact this
        · exact Or.inr ⟨m, by simp only [buildPlanes, e1, Res.bind_ok, e2, Res.bind_fatal]⟩
      · exact Or.inr ⟨_, by simp only [buildPlanes, e1, Res.bind_fatal]; rfl⟩
    · cases src with
      | none => exact absurd hl0 hc
      | some gp =>
        obtain ⟨g, p⟩ := gp
        obtain ⟨m, e⟩ := sourcePlane_fatal r hl0 hc
        exact Or.inr ⟨m, by simp only [buildPlanes, buildPlane, e, Res.bind_fatal]⟩

/-- Executable contract. -/
def legalB (s : SWorld) : Op → Bool
  | .newVideo fmt x y _ => fmt.audio == false && decide (0 < x) && decide (0 < y) &&
      (fmt.numPlanes == 1 || fmt.numPlanes == 3) &&
      (List.range fmt.numPlanes).all (fun i =>
        decide (videoSize s.align fmt x.toNat y.toNat i < 9223372036854775808))
  | .newVideo2 fmt x y srcs _ => fmt.audio == false && decide (0 < x) && decide (0 < y) &&
      (fmt.numPlanes == 1 || fmt.numPlanes == 3) && srcs.length == fmt.numPlanes &&
      (List.range srcs.length).all (fun i =>
        match srcs.getD i none with
        | none => decide (videoSize s.align fmt x.toNat y.toNat i < 9223372036854775808)
        | some (g, p) =>
          match s.frames.get g with
          | none => false
          | some f => f.fmt.audio == false && decide (0 ≤ p) && decide (p < f.fmt.numPlanes) &&
              decide (f.width >>> (if p.toNat = 0 then 0 else f.fmt.ssw) =
                x.toNat >>> (if i = 0 then 0 else fmt.ssw)) &&
              decide (f.height >>> (if p.toNat = 0 then 0 else f.fmt.ssh) =
                y.toNat >>> (if i = 0 then 0 else fmt.ssh)))
  | .newAudio fmt n _ => fmt.audio && decide (0 < n) && decide (n ≤ SAMPLES) &&
      decide (0 < fmt.numPlanes) && decide (fmt.numPlanes ≤ 64) && decide (0 < fmt.bps) &&
      decide (fmt.bps ≤ 8)
  | .newAudio2 fmt n srcs _ => fmt.audio && decide (0 < n) && decide (n ≤ SAMPLES) &&
      decide (0 < fmt.numPlanes) && decide (fmt.numPlanes ≤ 64) && decide (0 < fmt.bps) &&
      decide (fmt.bps ≤ 8) && srcs.length == fmt.numPlanes && srcs.all (fun src =>
        match src with
        | none => true
        | some (g, c) =>
          match s.frames.get g with
          | none => false
          | some f => f.fmt.audio && decide (0 ≤ c) && decide (c < f.fmt.numPlanes) &&
              decide (f.width = n.toNat) && decide (f.fmt.bps = fmt.bps))
  | .copyFrame g => (s.frames.get g).isSome
  | .addRef g => (s.frames.get g).isSome
  | .freeFrame g => (s.frames.get g).isSome
  | .getWritePtr g _ => (s.frames.get g).isSome
  | .store a _ =>
    match s.tokens.find? (fun t => t.buf = a.buf) with
    | none => false
    | some t =>
      match s.frames.get t.frame with
      | none => false
      | some f =>
        match f.planes[t.slot]? with
        | none => false
        | some p => decide (a.off < p.size)

theorem legalB_sound {op : Op} (h : legalB s op = true) : s.Legal op := by
  cases op with
  | newVideo fmt x y junk =>
    simp only [legalB, Bool.and_eq_true, beq_iff_eq, decide_eq_true_eq, Bool.or_eq_true,
      List.all_eq_true, List.mem_range] at h
    exact ⟨h.1.1.1.1, h.1.1.1.2, h.1.1.2, h.1.2, h.2⟩
  | newVideo2 fmt x y srcs junk =>
    simp only [legalB, Bool.and_eq_true, beq_iff_eq, decide_eq_true_eq, Bool.or_eq_true,
      List.all_eq_true, List.mem_range] at h
    refine ⟨h.1.1.1.1.1, h.1.1.1.1.2, h.1.1.1.2, h.1.1.2, h.1.2, ?_⟩
    intro i hi
    have h2 := h.2 i hi
    rw [List.getD_eq_getElem?_getD, List.getElem?_eq_getElem hi, Option.getD_some] at h2
    revert h2
    cases srcs[i] with
    | none => simp [SWorld.LegalSrc]
    | some gp =>
      obtain ⟨g, p⟩ := gp
      simp only
      cases e : s.frames.get g with
      | none => simp
      | some f =>
        simp only [Bool.and_eq_true, beq_iff_eq, decide_eq_true_eq]
        rintro ⟨⟨⟨⟨a1, a2⟩, a3⟩, a4⟩, a5⟩
        exact ⟨f, e, a1, a2, a3, a4, a5⟩
  | newAudio fmt n junk =>
    simp only [legalB, Bool.and_eq_true, decide_eq_true_eq] at h
    exact ⟨h.1.1.1.1.1.1, h.1.1.1.1.1.2, h.1.1.1.1.2, h.1.1.1.2, h.1.1.2, h.1.2, h.2⟩
  | newAudio2 fmt n srcs junk =>
    simp only [legalB, Bool.and_eq_true, decide_eq_true_eq, beq_iff_eq, List.all_eq_true] at h
    refine ⟨h.1.1.1.1.1.1.1.1, h.1.1.1.1.1.1.1.2, h.1.1.1.1.1.1.2, h.1.1.1.1.1.2, h.1.1.1.1.2,
      h.1.1.1.2, h.1.1.2, h.1.2, ?_⟩
    intro src hs
    have h2 := h.2 src hs
    cases src with
    | none => trivial
    | some gc =>
      obtain ⟨g, c⟩ := gc
      simp only at h2
      cases e : s.frames.get g with
      | none => rw [e] at h2; simp at h2
      | some f =>
        rw [e] at h2
        simp only [Bool.and_eq_true, decide_eq_true_eq] at h2
        exact ⟨f, e, h2.1.1.1.1, h2.1.1.1.2, h2.1.1.2, h2.1.2, h2.2⟩
  | copyFrame g => exact h
  | addRef g => exact h
  | freeFrame g => exact h
  | getWritePtr g p => exact h
  | store a v =>
    simp only [legalB] at h
    split at h
    · simp at h
    · rename_i t ht
      split at h
      · simp at h
      · rename_i f hf
        split at h
        · simp at h
        · rename_i p hp
          exact ⟨t, f, p, ht, hf, hp, by simpa using h⟩

/-- Run a history that keeps the contract. -/
def play : World → SWorld → List Op → Option (World × SWorld)
  | w, s, [] => some (w, s)
  | w, s, op :: t =>
    if legalB s op = true then
      match step w op with
      | .ok (w', out) => play w' (s.next op out) t
      | _ => none
    else none

theorem reach_of_play : ∀ (ops : List Op) {w w' : World} {s s' : SWorld},
    Reach thr limit align sys rnd w s → play w s ops = some (w', s') →
    Reach thr limit align sys rnd w' s' := by
  intro ops
  induction ops with
  | nil => intro w w' s s' h e; simp only [play, Option.some.injEq, Prod.mk.injEq] at e; obtain ⟨rfl, rfl⟩ := e; exact h
  | cons op t ih =>
    intro w w' s s' h e
    simp only [play] at e
    split at e
    · rename_i hl
      split at e
      · rename_i e1
        exact ih (Reach.call h (legalB_sound hl) e1) e
      · simp at e
    · simp at e

end VS.Frame
