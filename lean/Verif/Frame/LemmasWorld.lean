import Verif.Frame.Lemmas

/-! Helper lemmas: frames on top of the plane store. -/

namespace VS.Frame
open VS

/-- The plane pointers of a cell. -/
def refsOf : Option Frame → List Nat
  | none => []
  | some f => f.data

/-- All references from live frames to planes. -/
def heldOf (h : Heap Frame) : List Nat := h.flatMap refsOf

theorem heldOf_alloc (h : Heap Frame) (f : Frame) :
    (heldOf (h.alloc f)).Perm (f.data ++ heldOf h) := by
  unfold heldOf Heap.alloc
  rw [List.flatMap_append]
  simp only [List.flatMap_cons, List.flatMap_nil, List.append_nil, refsOf]
  exact List.perm_append_comm

theorem heldOf_put {h : Heap Frame} {i : Nat} {f : Frame} (e : h.get i = some f)
    (o : Option Frame) : ∃ rest, (heldOf h).Perm (f.data ++ rest) ∧
      (heldOf (h.put i o)).Perm (refsOf o ++ rest) := by
  induction h generalizing i with
  | nil => simp [Heap.get] at e
  | cons c t ih =>
    cases i with
    | zero =>
      have : c = some f := by simpa [Heap.get] using e
      subst this
      exact ⟨heldOf t, by simp [heldOf, refsOf], by simp [heldOf, Heap.put]⟩
    | succ i =>
      have e' : Heap.get t i = some f := by simpa [Heap.get] using e
      obtain ⟨rest, h1, h2⟩ := ih e'
      have e1 : Heap.put (c :: t) (i + 1) o = c :: Heap.put t i o := by simp [Heap.put]
      refine ⟨refsOf c ++ rest, ?_, ?_⟩
      · show (refsOf c ++ heldOf t).Perm _
        refine (List.Perm.append_left _ h1).trans ?_
        rw [← List.append_assoc, ← List.append_assoc]
        exact List.Perm.append_right _ List.perm_append_comm
      · rw [e1]
        show (refsOf c ++ heldOf (Heap.put t i o)).Perm _
        refine (List.Perm.append_left _ h2).trans ?_
        rw [← List.append_assoc, ← List.append_assoc]
        exact List.Perm.append_right _ List.perm_append_comm

theorem heldOf_put_same {h : Heap Frame} {i : Nat} {f f' : Frame} (e : h.get i = some f)
    (hd : f'.data = f.data) : (heldOf (h.put i (some f'))).Perm (heldOf h) := by
  obtain ⟨rest, h1, h2⟩ := heldOf_put e (some f')
  refine h2.trans (List.Perm.trans ?_ h1.symm)
  simp only [refsOf, hd]; exact List.Perm.refl _

theorem mem_heldOf {h : Heap Frame} {i : Nat} {f : Frame} (e : h.get i = some f) {id : Nat}
    (hm : id ∈ f.data) : id ∈ heldOf h := by
  obtain ⟨rest, h1, _⟩ := heldOf_put e none
  exact h1.mem_iff.2 (List.mem_append.2 (Or.inl hm))

theorem exists_of_heldOf {h : Heap Frame} {id : Nat} (hm : id ∈ heldOf h) :
    ∃ i f, h.get i = some f ∧ id ∈ f.data := by
  obtain ⟨c, hc, hid⟩ := List.mem_flatMap.1 hm
  cases c with
  | none => simp [refsOf] at hid
  | some f =>
    obtain ⟨i, hi⟩ := List.getElem?_of_mem hc
    exact ⟨i, f, by simp [Heap.get, hi], hid⟩

theorem count_two {l : List Nat} {a b id : Nat} (hab : a ≠ b) (ha : l[a]? = some id)
    (hb : l[b]? = some id) : 2 ≤ l.count id := by
  induction l generalizing a b with
  | nil => simp at ha
  | cons x t ih =>
    cases a with
    | zero =>
      cases b with
      | zero => exact absurd rfl hab
      | succ b =>
        simp only [List.getElem?_cons_zero, Option.some.injEq] at ha
        simp only [List.getElem?_cons_succ] at hb
        subst ha
        have := List.count_pos_iff.2 (List.mem_of_getElem? hb)
        simp only [List.count_cons_self]; omega
    | succ a =>
      simp only [List.getElem?_cons_succ] at ha
      cases b with
      | zero =>
        simp only [List.getElem?_cons_zero, Option.some.injEq] at hb
        subst hb
        have := List.count_pos_iff.2 (List.mem_of_getElem? ha)
        simp only [List.count_cons_self]; omega
      | succ b =>
        simp only [List.getElem?_cons_succ] at hb
        have := ih (fun x => hab (by omega)) ha hb
        have h2 : t.count id ≤ (x :: t).count id := by
          simp only [List.count_cons]; omega
        omega

/-- A plane referenced once is referenced from one place. -/
theorem only_ref {h : Heap Frame} {id g g' k k' : Nat} {f f' : Frame}
    (hc : (heldOf h).count id = 1) (e : h.get g = some f) (e' : h.get g' = some f')
    (hk : f.data[k]? = some id) (hk' : f'.data[k']? = some id) : g = g' ∧ k = k' := by
  obtain ⟨rest, h1, h2⟩ := heldOf_put e none
  have hc' := h1.count_eq id
  rw [hc, List.count_append] at hc'
  have hpos := List.count_pos_iff.2 (List.mem_of_getElem? hk)
  by_cases hg : g = g'
  · subst hg
    rw [e] at e'
    simp only [Option.some.injEq] at e'
    subst e'
    refine ⟨rfl, ?_⟩
    by_cases hkk : k = k'
    · exact hkk
    · have := count_two hkk hk hk'; omega
  · exfalso
    have e2 : (h.put g none).get g' = some f' := by rw [Heap.get_put_ne none hg]; exact e'
    have hm := mem_heldOf e2 (List.mem_of_getElem? hk')
    have hm' : id ∈ rest := by simpa [refsOf] using h2.mem_iff.1 hm
    have := List.count_pos_iff.2 hm'
    omega

/-- A frame of the model shows the pixels of a frame of values. -/
structure FRel (s : PS) (f : Frame) (sf : SFrame) : Prop where
  ref : sf.ref = f.ref
  pos : 0 < f.ref
  fmt : sf.fmt = f.fmt
  width : sf.width = f.width
  height : sf.height = f.height
  stride : sf.stride = f.stride
  len : sf.planes.length = f.data.length
  shape : f.data.length = if f.fmt.audio = true then 1 else f.fmt.numPlanes
  planes : ∀ k id : Nat, f.data[k]? = some id →
    ∃ p, s.planes.get id = some p ∧ sf.planes[k]? = some ⟨p.size, p.bytes⟩
  audio : f.fmt.audio = true → f.stride = f.fmt.bps * SAMPLES ∧ f.width ≤ SAMPLES ∧
    ∀ p, sf.planes[0]? = some p → p.size = f.stride * f.fmt.numPlanes

theorem FRel.keep {s s' : PS} {f : Frame} {sf : SFrame} {held : List Nat} (h : FRel s f sf)
    (hk : Keeps s s' held) (hs : ∀ id ∈ f.data, id ∈ held) : FRel s' f sf := by
  refine ⟨h.ref, h.pos, h.fmt, h.width, h.height, h.stride, h.len, h.shape, ?_, h.audio⟩
  intro k id e
  obtain ⟨p, hp, hq⟩ := h.planes k id e
  obtain ⟨p', hp', _, h2, h3⟩ := hk id (hs id (List.mem_of_getElem? e)) p hp
  exact ⟨p', hp', by rw [h2, h3]; exact hq⟩

/-- Both worlds agree. -/
structure Rel (thr limit : Nat) (w : World) (s : SWorld) : Prop where
  pinv : PInv thr limit w.ps (heldOf w.frames)
  align : s.align = w.align
  len : s.frames.length = w.frames.length
  found : ∀ g f, w.frames.get g = some f → ∃ sf, s.frames.get g = some sf ∧ FRel w.ps f sf
  back : ∀ g sf, s.frames.get g = some sf → ∃ f, w.frames.get g = some f
  tokens : ∀ t ∈ s.tokens, ∃ f id p, w.frames.get t.frame = some f ∧ f.data[t.slot]? = some id ∧
    w.ps.planes.get id = some p ∧ p.buf = t.buf ∧ p.ref = 1

variable {thr limit : Nat} {w w' : World} {s : SWorld}

theorem Rel.get (r : Rel thr limit w s) {g : Nat} {sf : SFrame} (h : s.frames.get g = some sf) :
    ∃ f, w.frames.get g = some f ∧ FRel w.ps f sf := by
  obtain ⟨f, hf⟩ := r.back g sf h
  obtain ⟨sf', h1, h2⟩ := r.found g f hf
  rw [h] at h1
  simp only [Option.some.injEq] at h1
  subst h1
  exact ⟨f, hf, h2⟩

/-- Adding a frame whose planes have been made, while other planes were kept. -/
theorem Rel.addFrame (r : Rel thr limit w s) {ps : PS} {f : Frame} {sf : SFrame}
    (hp : PInv thr limit ps (f.data ++ heldOf w.frames))
    (hk : Keeps w.ps ps (heldOf w.frames)) (hf : FRel ps f sf) (toks : List Token)
    (ht : ∀ t ∈ toks, t ∈ s.tokens ∧ ∀ f id p, w.frames.get t.frame = some f →
      f.data[t.slot]? = some id → w.ps.planes.get id = some p → p.ref = 1 →
      ps.planes.get id = some p) :
    Rel thr limit { w with ps := ps, frames := w.frames.alloc f }
      { frames := s.frames.alloc sf, tokens := toks, align := s.align } := by
  refine ⟨hp.perm (heldOf_alloc _ _), r.align, by simp [r.len], ?_, ?_, ?_⟩
  · intro g f' hg
    simp only at hg
    by_cases he : g = w.frames.length
    · subst he
      rw [Heap.get_alloc_self] at hg
      simp only [Option.some.injEq] at hg
      subst hg
      exact ⟨sf, by rw [← r.len, Heap.get_alloc_self], hf⟩
    · rw [Heap.get_alloc_ne he] at hg
      obtain ⟨sf', h1, h2⟩ := r.found g f' hg
      exact ⟨sf', Heap.get_alloc_of_some h1, h2.keep hk (fun id hid => mem_heldOf hg hid)⟩
  · intro g sf' hg
    simp only at hg
    by_cases he : g = w.frames.length
    · subst he
      exact ⟨f, Heap.get_alloc_self _ _⟩
    · rw [Heap.get_alloc_ne (by rw [r.len]; exact he)] at hg
      obtain ⟨f', h1⟩ := r.back g sf' hg
      exact ⟨f', Heap.get_alloc_of_some h1⟩
  · intro t htm
    obtain ⟨hm, hx⟩ := ht t htm
    obtain ⟨f', id, p, h1, h2, h3, h4, h5⟩ := r.tokens t hm
    exact ⟨f', id, p, Heap.get_alloc_of_some h1, h2, hx f' id p h1 h2 h3 h5, h4, h5⟩

/-! ### Making planes -/

/-- The out of memory abort. -/
def oom : String := "Failed to allocate memory for plane. Out of memory."

/-- The plane object a source stands for. -/
def srcId (w : World) : Src → Option Nat
  | none => none
  | some (g, p) =>
    match w.frames.get g with
    | none => none
    | some f => f.data[p.toNat]?

theorem planeSize_eq {align : Nat} {f : Frame} {i : Nat}
    (h : planeStride align f i * f.heightOf i < 9223372036854775808) :
    planeSize align f i = .ok (planeStride align f i * f.heightOf i) := by
  unfold planeSize
  rw [i64_ok (by unfold InI64 INT64_MIN INT64_MAX; omega)]
  simp only [Res.bind_ok]
  rw [Int.toNat_natCast]

theorem sourcePlane_ok (r : Rel thr limit w s) {f : Frame} {i g : Nat} {p : Int}
    (hl : s.LegalSrc f.fmt f.width f.height i (some (g, p))) :
    ∃ id, sourcePlane w f i g p = .ok id ∧ srcId w (some (g, p)) = some id ∧
      id ∈ heldOf w.frames := by
  obtain ⟨sf, h1, h2, h3, h4, h5, h6⟩ := hl
  obtain ⟨f', hf, hr⟩ := r.get h1
  have hp : p.toNat < f'.data.length := by
    rw [hr.shape, ← hr.fmt, if_neg (by simp [h2])]; omega
  have hd : f'.data[p.toNat]? = some f'.data[p.toNat] := List.getElem?_eq_getElem hp
  refine ⟨f'.data[p.toNat], ?_, ?_, mem_heldOf hf (List.getElem_mem hp)⟩
  · simp only [sourcePlane, frame, hf, Res.bind_ok]
    rw [if_neg (by rw [← hr.fmt]; omega)]
    have e1 : f'.widthOf p.toNat = f.widthOf i := by
      simp only [Frame.widthOf, ← hr.width, ← hr.fmt]; exact h5
    have e2 : f'.heightOf p.toNat = f.heightOf i := by
      simp only [Frame.heightOf, ← hr.height, ← hr.fmt]; exact h6
    rw [if_neg (by simp [e1, e2])]
    simp only [dataOf, hd]
  · simp only [srcId, hf, hd]

theorem buildPlane_ok (r : Rel thr limit w s) {f : Frame} {junk : Nat → Nat → Nat} {t : PS}
    {acc : List Nat} {i : Nat} {src : Src} (hp : PInv thr limit t (acc ++ heldOf w.frames))
    (hk : Keeps w.ps t (heldOf w.frames)) (hl : s.LegalSrc f.fmt f.width f.height i src) :
    (∃ t' id p, buildPlane w f junk t i src = .ok (t', id) ∧
      PInv thr limit t' (id :: (acc ++ heldOf w.frames)) ∧
      Keeps t t' (acc ++ heldOf w.frames) ∧ t'.planes.get id = some p ∧
      s.initial (videoSize s.align f.fmt f.width f.height) junk i src = ⟨p.size, p.bytes⟩ ∧
      (∀ j p, t.planes.get j = some p → srcId w src ≠ some j → t'.planes.get j = some p)) ∨
    buildPlane w f junk t i src = .fatal oom := by
  cases src with
  | none =>
    have hsz : planeStride w.align f i * f.heightOf i < 9223372036854775808 := by
      have : videoSize s.align f.fmt f.width f.height i < 9223372036854775808 := hl
      rw [r.align] at this
      exact this
    simp only [buildPlane, planeSize_eq hsz, Res.bind_ok]
    rcases newPlane_total hp (b := junk i) hsz with ⟨t', id, e⟩ | e
    · left
      obtain ⟨h1, h2, h3, ⟨buf, h4⟩, h5⟩ := newPlane_inv hp hsz e
      refine ⟨t', id, _, e, h1, ?_, h4, ?_, ?_⟩
      · intro j hj q hq
        exact ⟨q, h5 j q hq, rfl, rfl, rfl⟩
      · show (⟨videoSize s.align f.fmt f.width f.height i, junk i⟩ : SPlane) = _
        rw [r.align]; rfl
      · intro j q hq _
        exact h5 j q hq
    · exact Or.inr e
  | some gp =>
    obtain ⟨g, p⟩ := gp
    left
    obtain ⟨id, e1, e2, e3⟩ := sourcePlane_ok r hl
    obtain ⟨t', e4, h1, h2, h3⟩ := addPlane_inv hp (id := id) (List.mem_append.2 (Or.inr e3))
    obtain ⟨sf, g1, g2, g3, g4, _, _⟩ := hl
    obtain ⟨f', hf, hr⟩ := r.get g1
    have hd : f'.data[p.toNat]? = some id := by simpa [srcId, hf] using e2
    obtain ⟨q, hq1, hq2⟩ := hr.planes p.toNat id hd
    obtain ⟨q1, k1, k2, k3, k4⟩ := hk id e3 q hq1
    obtain ⟨q2, l1, l2, l3, l4⟩ := h2 id (List.mem_append.2 (Or.inr e3)) q1 k1
    refine ⟨t', id, q2, by simp only [buildPlane, e1, Res.bind_ok, e4], h1, h2, l1, ?_, ?_⟩
    · simp only [SWorld.initial, g1]
      rw [List.getD_eq_getElem?_getD, hq2, l3, l4, k3, k4]
      rfl
    · intro j x hx hne
      rw [h3 j (fun hj => hne (by rw [hj]; exact e2))]
      exact hx

theorem buildPlanes_ok (r : Rel thr limit w s) {f : Frame} {junk : Nat → Nat → Nat}
    (srcs : List Src) : ∀ {t : PS} {acc : List Nat} {i : Nat},
    PInv thr limit t (acc ++ heldOf w.frames) → Keeps w.ps t (heldOf w.frames) →
    (∀ k (h : k < srcs.length), s.LegalSrc f.fmt f.width f.height (i + k) srcs[k]) →
    (∃ t' ids, buildPlanes w f junk t i srcs = .ok (t', ids) ∧
      PInv thr limit t' (ids ++ acc ++ heldOf w.frames) ∧
      Keeps t t' (acc ++ heldOf w.frames) ∧ ids.length = srcs.length ∧
      (∀ k id : Nat, ids[k]? = some id → ∃ p, t'.planes.get id = some p ∧
        (s.initials (videoSize s.align f.fmt f.width f.height) junk i srcs)[k]? =
          some ⟨p.size, p.bytes⟩) ∧
      (∀ j p, t.planes.get j = some p → (∀ src ∈ srcs, srcId w src ≠ some j) →
        t'.planes.get j = some p)) ∨
    buildPlanes w f junk t i srcs = .fatal oom := by
  induction srcs with
  | nil =>
    intro t acc i hp hk _
    exact Or.inl ⟨t, [], rfl, by simpa using hp, Keeps.refl _ _, rfl, by simp, fun j p h _ => h⟩
  | cons src rest ih =>
    intro t acc i hp hk hl
    have hl0 := hl 0 (by simp)
    simp only [List.getElem_cons_zero, Nat.add_zero] at hl0
    rcases buildPlane_ok r (junk := junk) hp hk hl0 with ⟨t1, id, p, e1, h1, h2, h3, h4, h5⟩ | e1
    · have hk1 : Keeps w.ps t1 (heldOf w.frames) := by
        intro j hj q hq
        obtain ⟨q1, a1, a2, a3, a4⟩ := hk j hj q hq
        obtain ⟨q2, b1, b2, b3, b4⟩ := h2 j (List.mem_append.2 (Or.inr hj)) q1 a1
        exact ⟨q2, b1, b2.trans a2, b3.trans a3, b4.trans a4⟩
      have hl1 : ∀ k (h : k < rest.length), s.LegalSrc f.fmt f.width f.height (i + 1 + k) rest[k] := by
        intro k hk'
        have := hl (k + 1) (by simp; omega)
        simp only [List.getElem_cons_succ] at this
        have e : i + (k + 1) = i + 1 + k := by omega
        rw [e] at this
        exact this
      have h1' : PInv thr limit t1 ((id :: acc) ++ heldOf w.frames) := by simpa using h1
      rcases ih (acc := id :: acc) (i := i + 1) h1' hk1 hl1 with
        ⟨t2, ids, e2, g1, g2, g3, g4, g5⟩ | e2
      · left
        refine ⟨t2, id :: ids, by simp only [buildPlanes, e1, Res.bind_ok, e2], ?_, ?_, by simp [g3],
          ?_, ?_⟩
        · refine g1.perm ?_
          simp only [List.cons_append, List.append_assoc]
          exact List.perm_middle.symm
        · intro j hj q hq
          obtain ⟨q1, a1, a2, a3, a4⟩ := h2 j hj q hq
          obtain ⟨q2, b1, b2, b3, b4⟩ := g2 j (by simp only [List.cons_append]; exact List.mem_cons_of_mem _ hj) q1 a1
          exact ⟨q2, b1, b2.trans a2, b3.trans a3, b4.trans a4⟩
        · intro k id' hk'
          cases k with
          | zero =>
            simp only [List.getElem?_cons_zero, Option.some.injEq] at hk'
            subst hk'
            obtain ⟨q2, b1, b2, b3, b4⟩ := g2 id (by simp) p h3
            exact ⟨q2, b1, by simp only [SWorld.initials, List.getElem?_cons_zero, h4, b3, b4]⟩
          | succ k =>
            simp only [List.getElem?_cons_succ] at hk'
            obtain ⟨q, c1, c2⟩ := g4 k id' hk'
            exact ⟨q, c1, by simp only [SWorld.initials, List.getElem?_cons_succ]; exact c2⟩
        · intro j q hq hne
          exact g5 j q (h5 j q hq (hne src (by simp)))
            (fun src' hs => hne src' (List.mem_cons_of_mem _ hs))
      · exact Or.inr (by simp only [buildPlanes, e1, Res.bind_ok, e2, Res.bind_fatal])
    · exact Or.inr (by simp only [buildPlanes, e1, Res.bind_fatal])

theorem initials_length (s : SWorld) (size : Nat → Nat) (junk : Nat → Nat → Nat) (srcs : List Src) :
    ∀ i, (s.initials size junk i srcs).length = srcs.length := by
  induction srcs with
  | nil => intro i; rfl
  | cons a t ih => intro i; simp [SWorld.initials, ih]

theorem addPlanes_ok (ids : List Nat) : ∀ {t : PS} {held : List Nat}, PInv thr limit t held →
    (∀ id ∈ ids, id ∈ held) →
    ∃ t', addPlanes t ids = .ok t' ∧ PInv thr limit t' (ids ++ held) ∧ Keeps t t' held ∧
      (∀ j, j ∉ ids → t'.planes.get j = t.planes.get j) := by
  induction ids with
  | nil => intro t held h _; exact ⟨t, rfl, h, Keeps.refl _ _, fun _ _ => rfl⟩
  | cons id rest ih =>
    intro t held h hm
    obtain ⟨t1, e1, h1, h2, h3⟩ := addPlane_inv h (hm id (by simp))
    obtain ⟨t2, e2, g1, g2, g3⟩ := ih h1 (fun j hj => List.mem_cons_of_mem _ (hm j (List.mem_cons_of_mem _ hj)))
    refine ⟨t2, by simp only [addPlanes, e1, Res.bind_ok, e2], ?_, ?_, ?_⟩
    · exact g1.perm (by simp only [List.cons_append]; exact List.perm_middle.symm)
    · intro j hj q hq
      obtain ⟨q1, a1, a2, a3, a4⟩ := h2 j hj q hq
      obtain ⟨q2, b1, b2, b3, b4⟩ := g2 j (List.mem_cons_of_mem _ hj) q1 a1
      exact ⟨q2, b1, b2.trans a2, b3.trans a3, b4.trans a4⟩
    · intro j hj
      rw [g3 j (fun x => hj (List.mem_cons_of_mem _ x)), h3 j (fun x => hj (by simp [x]))]

theorem releasePlanes_ok (ids : List Nat) : ∀ {t : PS} {held : List Nat},
    PInv thr limit t (ids ++ held) →
    ∃ t', releasePlanes t ids = .ok t' ∧ PInv thr limit t' held ∧ Keeps t t' held ∧
      (∀ j, j ∉ ids → t'.planes.get j = t.planes.get j) := by
  induction ids with
  | nil => intro t held h; exact ⟨t, rfl, h, Keeps.refl _ _, fun _ _ => rfl⟩
  | cons id rest ih =>
    intro t held h
    obtain ⟨t1, e1, h1, h2, h3⟩ := releasePlane_inv (id := id) (held := rest ++ held) h
    obtain ⟨t2, e2, g1, g2, g3⟩ := ih h1
    refine ⟨t2, by simp only [releasePlanes, e1, Res.bind_ok, e2], g1, ?_, ?_⟩
    · intro j hj q hq
      obtain ⟨q1, a1, a2, a3, a4⟩ := h2 j (List.mem_append.2 (Or.inr hj)) q hq
      obtain ⟨q2, b1, b2, b3, b4⟩ := g2 j hj q1 a1
      exact ⟨q2, b1, b2.trans a2, b3.trans a3, b4.trans a4⟩
    · intro j hj
      rw [g3 j (fun x => hj (List.mem_cons_of_mem _ x)), h3 j (fun x => hj (by simp [x]))]

end VS.Frame
