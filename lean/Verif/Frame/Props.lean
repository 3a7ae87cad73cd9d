import Verif.Frame.LemmasProps

/-!
# C05, C06, C43: frames
-/

namespace VS.Frame
open VS

variable {thr limit align : Nat} {sys : List (Option Nat)} {rnd : List (List Nat)}
  {w : World} {s : SWorld}

/-- **C05** (isolation).  After any history of calls, reading any byte of any plane or channel of
any live frame gives what it would give if every frame had its own copy of its pixels from the
start, in particular no write to one frame is ever seen through another, and the last write to a
frame is what a reader of it sees.  Frames are live in both worlds at the same time. -/
theorem C05_isolation (h : Reach thr limit align sys rnd w s) :
    (∀ g, (w.frames.get g).isSome = (s.frames.get g).isSome) ∧
    ∀ g sf, s.frames.get g = some sf → ∀ p : Int, 0 ≤ p → p < sf.fmt.numPlanes →
      ∀ off < sf.room p.toNat, ∃ b, s.read g p.toNat off = some b ∧
        readByte w g p off = .ok (some b) := by
  have r := reach_rel h
  constructor
  · intro g
    cases e : w.frames.get g with
    | some f => obtain ⟨sf, h1, _⟩ := r.found g f e; simp [h1]
    | none =>
      cases e' : s.frames.get g with
      | none => rfl
      | some sf => obtain ⟨f, h1⟩ := r.back g sf e'; rw [e] at h1; simp at h1
  · intro g sf hg p h0 hp off ho
    obtain ⟨sp, hs⟩ := plane_exists r hg h0 hp
    simp only [SFrame.room, hs] at ho
    rw [readByte_eq r hg h0 hp hs, if_pos (by omega)]
    simp only [SWorld.read, hg]
    by_cases ha : sf.fmt.audio = true
    · simp only [if_pos ha]
      refine ⟨_, rfl, ?_⟩
      simp only [SFrame.channel]
      have : sf.slot p.toNat = 0 := by simp [SFrame.slot, ha]
      rw [this] at hs
      rw [List.getD_eq_getElem?_getD, hs]
      rfl
    · simp only [if_neg ha]
      have : sf.slot p.toNat = p.toNat := by simp [SFrame.slot, ha]
      rw [this] at hs
      exact ⟨sp.bytes off, by rw [hs]; rfl, by simp⟩

/-- **C05** (metadata).  Format, size and stride of a live frame are those given at its creation:
they agree with the world in which frames are values. -/
theorem C05_metadata (h : Reach thr limit align sys rnd w s) {g : Nat} {f : Frame}
    (hf : w.frames.get g = some f) : ∃ sf, s.frames.get g = some sf ∧ sf.fmt = f.fmt ∧
      sf.width = f.width ∧ sf.height = f.height ∧ sf.stride = f.stride ∧ sf.ref = f.ref := by
  obtain ⟨sf, h1, h2⟩ := (reach_rel h).found g f hf
  exact ⟨sf, h1, h2.fmt, h2.width, h2.height, h2.stride, h2.ref⟩

/-- **C05** (safety).  A call that keeps the contract never is undefined behaviour; it works, or the
process stops because the system has no memory. -/
theorem C05_no_ub (h : Reach thr limit align sys rnd w s) {op : Op} (hl : s.Legal op) :
    (∃ w' out, step w op = .ok (w', out) ∧ Reach thr limit align sys rnd w' (s.next op out)) ∨
    step w op = .fatal "Failed to allocate memory for plane. Out of memory." := by
  rcases step_rel (reach_rel h) hl with ⟨w', out, e, _⟩ | e
  · exact Or.inl ⟨w', out, e, Reach.call h hl e⟩
  · exact Or.inr e

/-- **C05** (one write).  Take any state, ask for the write pointer of a plane or channel of a
frame, and store one byte at offset `o` of it.  Afterwards that byte of that frame reads as stored,
and every other byte of every plane of every frame, this one included, reads as before. -/
theorem C05_write (h : Reach thr limit align sys rnd w s) {g : Nat} {p : Int} {sf : SFrame}
    (hsf : s.frames.get g = some sf) {a : Ptr} {w1 w2 : World} {o v : Nat} {out : Out}
    (hw : step w (.getWritePtr g p) = .ok (w1, .ptr (some a)))
    (ho : o < sf.room p.toNat)
    (hs : step w1 (.store ⟨a.buf, a.off + o⟩ v) = .ok (w2, out)) :
    readByte w2 g p o = .ok (some v) ∧
    (∀ g', g' ≠ g → ∀ (p' : Int) (o' : Nat), readByte w2 g' p' o' = readByte w g' p' o') ∧
    (sf.fmt.audio = false → ∀ (p' : Int) (o' : Nat), (p', o') ≠ (p, o) →
      readByte w2 g p' o' = readByte w g p' o') ∧
    (sf.fmt.audio = true → o < sf.stride → ∀ (p' : Int) (o' : Nat), o' < sf.stride →
      (p', o') ≠ (p, o) → readByte w2 g p' o' = readByte w g p' o') := by
  have r := reach_rel h
  obtain ⟨h0, hp, hoff, r1⟩ := rel_getWritePtr r hw hsf
  obtain ⟨sp, hsp⟩ := plane_exists r hsf h0 hp
  simp only [SFrame.room, hsp] at ho
  have hin : a.off + o < sp.size := by rw [hoff]; omega
  have hfind : (⟨a.buf, g, sf.slot p.toNat⟩ :: s.tokens : List Token).find?
      (fun t => t.buf = a.buf) = some ⟨a.buf, g, sf.slot p.toNat⟩ := by
    rw [List.find?_cons_of_pos (by simp)]
  obtain ⟨w', e, r2⟩ := store_rel r1 (a := ⟨a.buf, a.off + o⟩) (v := v) hfind hsf hsp hin
  have : w' = w2 := by
    simp only [step, quiet, e, Res.bind_ok, Res.ok.injEq, Prod.mk.injEq] at hs
    exact hs.1
  subst this
  have hlt := Heap.get_lt hsf
  have hslt : sf.slot p.toNat < sf.planes.length := by
    rcases Nat.lt_or_ge (sf.slot p.toNat) sf.planes.length with h | h
    · exact h
    · rw [List.getElem?_eq_none h] at hsp; simp at hsp
  simp only at r2
  -- the frame after the write
  have hnew : (s.frames.put g (some (sf.write (sf.slot p.toNat) (a.off + o) v))).get g =
      some (sf.write (sf.slot p.toNat) (a.off + o) v) := Heap.get_put_self _ hlt
  have hwr : sf.write (sf.slot p.toNat) (a.off + o) v =
      { sf with planes := sf.planes.set (sf.slot p.toNat) (SPlane.mk sp.size (fun i => if i = a.off + o then v else sp.bytes i)) } := by
    simp only [SFrame.write, hsp]
  have hbad : ∀ (w0 : World) (s0 : SWorld) (g0 : Nat) (sf0 : SFrame) (p' : Int) (o' : Nat),
      Rel thr limit w0 s0 → s0.frames.get g0 = some sf0 → ¬(0 ≤ p' ∧ p' < sf0.fmt.numPlanes) →
      readByte w0 g0 p' o' = .ok none := by
    intro w0 s0 g0 sf0 p' o' r0 hg0 hn
    obtain ⟨f, hf, hr⟩ := r0.get hg0
    simp only [readByte, frame, hf, Res.bind_ok]
    rw [if_pos (by rw [← hr.fmt]; omega)]
  rw [hwr] at hnew r2
  have hself : ∀ (p' : Int) (o' : Nat),
      (sf.slot p'.toNat = sf.slot p.toNat →
        (if sf.fmt.audio = true then p'.toNat * sf.stride else 0) + o' ≠ a.off + o) →
      readByte w' g p' o' = readByte w g p' o' := by
    intro p' o' hne
    by_cases hr : 0 ≤ p' ∧ p' < sf.fmt.numPlanes
    · obtain ⟨sp', hsp'⟩ := plane_exists r hsf hr.1 hr.2
      rw [readByte_eq r hsf hr.1 hr.2 hsp']
      by_cases hsl : sf.slot p'.toNat = sf.slot p.toNat
      · have hsp2 := hsp'
        rw [hsl, hsp] at hsp2
        simp only [Option.some.injEq] at hsp2
        subst hsp2
        rw [readByte_eq (sp := SPlane.mk sp.size (fun i => if i = a.off + o then v else sp.bytes i)) r2
          hnew hr.1 hr.2 (by
            show (sf.planes.set _ _)[sf.slot p'.toNat]? = _
            rw [hsl, List.getElem?_set_self hslt])]
        simp only [if_neg (hne hsl)]
      · rw [readByte_eq (sp := sp') r2 hnew hr.1 hr.2 (by
            show (sf.planes.set _ _)[sf.slot p'.toNat]? = _
            rw [List.getElem?_set_ne (fun h => hsl h.symm)]; exact hsp')]
    · rw [hbad _ _ _ _ _ _ r hsf hr, hbad _ _ _ _ p' o' r2 hnew hr]
  refine ⟨?_, ?_, ?_, ?_⟩
  · rw [readByte_eq (sp := SPlane.mk sp.size (fun i => if i = a.off + o then v else sp.bytes i)) r2
      hnew h0 hp (by
        show (sf.planes.set _ _)[sf.slot p.toNat]? = _
        rw [List.getElem?_set_self hslt])]
    simp only
    rw [hoff] at hin ⊢
    rw [if_pos hin]
    simp
  · intro g' hg' p' o'
    cases e' : s.frames.get g' with
    | none =>
      have e2 : (s.frames.put g (some { sf with planes := sf.planes.set (sf.slot p.toNat) (SPlane.mk sp.size (fun i => if i = a.off + o then v else sp.bytes i)) })).get g' = none := by
        rw [Heap.get_put_ne _ (fun h => hg' h.symm)]; exact e'
      have hn : w.frames.get g' = none := by
        cases ee : w.frames.get g' with
        | none => rfl
        | some f => obtain ⟨_, x, _⟩ := r.found g' f ee; rw [e'] at x; simp at x
      have hn2 : w'.frames.get g' = none := by
        cases ee : w'.frames.get g' with
        | none => rfl
        | some f => obtain ⟨_, x, _⟩ := r2.found g' f ee; rw [e2] at x; simp at x
      simp only [readByte, frame, hn, hn2]; rfl
    | some sf' =>
      have e2 : (s.frames.put g (some { sf with planes := sf.planes.set (sf.slot p.toNat) (SPlane.mk sp.size (fun i => if i = a.off + o then v else sp.bytes i)) })).get g' = some sf' := by
        rw [Heap.get_put_ne _ (fun h => hg' h.symm)]; exact e'
      by_cases hr : 0 ≤ p' ∧ p' < sf'.fmt.numPlanes
      · obtain ⟨sp', hsp'⟩ := plane_exists r e' hr.1 hr.2
        rw [readByte_eq r e' hr.1 hr.2 hsp', readByte_eq r2 e2 hr.1 hr.2 hsp']
      · rw [hbad _ _ _ _ _ _ r e' hr, hbad _ _ _ _ p' o' r2 e2 hr]
  · intro ha p' o' hne
    by_cases hneg : p' < 0
    · have hr : ¬(0 ≤ p' ∧ p' < sf.fmt.numPlanes) := by omega
      rw [hbad _ _ _ _ _ _ r hsf hr, hbad _ _ _ _ p' o' r2 hnew hr]
    · apply hself
      intro hsl
      simp only [SFrame.slot, ha] at hsl
      simp only [ha] at hoff ⊢
      simp only [Bool.false_eq_true, if_false] at hsl hoff ⊢
      intro ho'
      apply hne
      have : p' = p := by omega
      rw [this]
      simp only [Prod.mk.injEq, true_and]
      omega
  · intro ha hos p' o' hos' hne
    by_cases hneg : p' < 0
    · have hr : ¬(0 ≤ p' ∧ p' < sf.fmt.numPlanes) := by omega
      rw [hbad _ _ _ _ _ _ r hsf hr, hbad _ _ _ _ p' o' r2 hnew hr]
    · apply hself
      intro _
      simp only [ha, if_true] at hoff ⊢
      rw [hoff]
      intro heq
      apply hne
      have h1 : (p'.toNat * sf.stride + o') / sf.stride = p'.toNat := by
        rw [Nat.mul_comm, Nat.mul_add_div (by omega), Nat.div_eq_of_lt hos']; rfl
      have h2 : (p.toNat * sf.stride + o) / sf.stride = p.toNat := by
        rw [Nat.mul_comm, Nat.mul_add_div (by omega), Nat.div_eq_of_lt hos]; rfl
      rw [heq, h2] at h1
      rw [← h1] at heq
      have : p' = p := by omega
      rw [this]
      simp only [Prod.mk.injEq, true_and]
      omega

/-- **C05** (wrong sources).  A call of `newVideoFrame2` that names live frames but a plane that does
not exist, or one of another size, ends the process with an error; it never makes a frame and is
never undefined. -/
theorem C05_wrong_source (h : Reach thr limit align sys rnd w s) {fmt : Fmt} {x y : Int}
    {srcs : List Src} {junk : Nat → Nat → Nat}
    (hl : ∀ i (h : i < srcs.length), s.LiveSrc fmt x.toNat y.toNat i srcs[i])
    (hn : ¬ ∀ i (h : i < srcs.length), s.LegalSrc fmt x.toNat y.toNat i srcs[i]) :
    ∃ m, step w (.newVideo2 fmt x y srcs junk) = .fatal m := by
  have r := reach_rel h
  simp only [step, newVideo2]
  by_cases hc : x ≤ 0 ∨ y ≤ 0
  · exact ⟨_, by rw [if_pos hc]; rfl⟩
  · rw [if_neg hc]
    rcases buildPlanes_bad r (f := blank fmt x.toNat y.toNat (strideOf w.align x.toNat fmt.bps))
      (junk := junk) srcs (t := w.ps) (acc := []) (i := 0) r.pinv (Keeps.refl _ _)
      (fun k hk => by rw [Nat.zero_add]; exact hl k hk) with hall | ⟨m, e⟩
    · exact absurd (fun i hi => by have := hall i hi; rw [Nat.zero_add] at this; exact this) hn
    · exact ⟨m, by simp only [e, Res.bind_fatal, made]⟩

/-- A second plane asked of a gray frame. -/
example : ¬ ∀ i (h : i < [(some (0, 1) : Src)].length),
    SWorld.LegalSrc ⟨[some ⟨1, ⟨false, 1, 1, 0, 0⟩, 64, 2, 64, [⟨128, fun _ => 0⟩]⟩], [], 32⟩
      ⟨false, 1, 1, 0, 0⟩ 64 2 i [(some (0, 1) : Src)][i] := by
  intro h
  obtain ⟨f, h1, _, _, h2, _⟩ := h 0 (by simp)
  have e : f = ⟨1, ⟨false, 1, 1, 0, 0⟩, 64, 2, 64, [⟨128, fun _ => 0⟩]⟩ :=
    (Option.some.inj h1).symm
  rw [e] at h2
  simp at h2

/-- **C06.**  After any history the reported memory is the total size of a list of distinct blocks,
which are exactly the blocks behind the plane buffers some live frame refers to: every block holds
such a buffer, and every such buffer lies in one of them. -/
theorem C06_exact (h : Reach thr limit align sys rnd w s) :
    ∃ bl : List Memory.Block, w.ps.mem.allocated = Memory.total bl ∧ bl.Nodup ∧
      (∀ b ∈ bl, b ∈ w.ps.mem.owned ∧ b ∉ w.ps.mem.pool ∧ ∃ u, InUse w u ∧ Memory.holds b u) ∧
      (∀ u, InUse w u → ∃ b ∈ bl, Memory.holds b u) := by
  have r := reach_rel h
  obtain ⟨v, hv, _, hperm⟩ := r.pinv.mem
  obtain ⟨bs, i⟩ := Memory.reach_inv hv
  have hnd := List.nodup_append.1 (i.perm.nodup_iff.1 i.toCore.nodup)
  have huse : ∀ u, InUse w u ↔ u ∈ v.live := by
    intro u
    constructor
    · rintro ⟨g, f, k, id, p, _, _, hp, rfl⟩
      exact hperm.mem_iff.2 (mem_bufsOf hp)
    · intro hu
      have hu' := hperm.mem_iff.1 hu
      unfold bufsOf at hu'
      obtain ⟨o, ho, he⟩ := List.mem_filterMap.1 hu'
      cases o with
      | none => simp at he
      | some p =>
        simp only [Option.map_some, Option.some.injEq] at he
        obtain ⟨id, hid⟩ := List.getElem?_of_mem ho
        have hp : w.ps.planes.get id = some p := by simp [Heap.get, hid]
        obtain ⟨l1, l2, _⟩ := r.pinv.live id p hp
        have hm : id ∈ heldOf w.frames := List.count_pos_iff.1 (by omega)
        obtain ⟨g, f, hf, hfd⟩ := exists_of_heldOf hm
        obtain ⟨k, hk⟩ := List.getElem?_of_mem hfd
        exact ⟨g, f, k, id, p, hf, hk, hp, he.symm⟩
  have hfits : ∀ c ∈ bs, Memory.holds c.1 ⟨c.1.addr + 64, c.2⟩ := by
    intro c hc
    have := i.fit c hc
    refine ⟨rfl, ?_⟩
    show c.1.addr + 64 + c.2 ≤ _
    omega
  refine ⟨bs.map Prod.fst, i.alloc, hnd.1, ?_, ?_⟩
  · intro b hb
    obtain ⟨c, hc, rfl⟩ := List.mem_map.1 hb
    refine ⟨i.perm.mem_iff.2 (List.mem_append.2 (Or.inl hb)), ?_, ⟨c.1.addr + 64, c.2⟩, ?_, hfits c hc⟩
    · intro hpool
      exact hnd.2.2 _ hb _ hpool rfl
    · rw [huse, i.live]
      exact List.mem_map.2 ⟨c, hc, rfl⟩
  · intro u hu
    rw [huse, i.live] at hu
    obtain ⟨c, hc, rfl⟩ := List.mem_map.1 hu
    exact ⟨c.1, List.mem_map.2 ⟨c, hc, rfl⟩, hfits c hc⟩

/-- **C06** (no leak).  When every frame has been freed the reported memory is zero, there are no
plane objects left and all memory obtained from the system is in the pool. -/
theorem C06_no_leak (h : Reach thr limit align sys rnd w s) (hall : ∀ g, s.frames.get g = none) :
    w.ps.mem.allocated = 0 ∧ (∀ id, w.ps.planes.get id = none) ∧
    w.ps.mem.owned.Perm w.ps.mem.pool := by
  have r := reach_rel h
  have hnone : ∀ g, w.frames.get g = none := by
    intro g
    cases e : w.frames.get g with
    | none => rfl
    | some f => obtain ⟨sf, h1, _⟩ := r.found g f e; rw [hall g] at h1; simp at h1
  have hplanes : ∀ id, w.ps.planes.get id = none := by
    intro id
    cases e : w.ps.planes.get id with
    | none => rfl
    | some p =>
      obtain ⟨l1, l2, _⟩ := r.pinv.live id p e
      have hm : id ∈ heldOf w.frames := List.count_pos_iff.1 (by omega)
      obtain ⟨g, f, hf, _⟩ := exists_of_heldOf hm
      rw [hnone g] at hf; simp at hf
  have hb : bufsOf w.ps.planes = [] := by
    unfold bufsOf
    rw [List.filterMap_eq_nil_iff]
    intro o ho
    cases o with
    | none => rfl
    | some p =>
      obtain ⟨id, hid⟩ := List.getElem?_of_mem ho
      have hp : w.ps.planes.get id = some p := by simp [Heap.get, hid]
      rw [hplanes id] at hp; simp at hp
  obtain ⟨v, hv, _, hperm⟩ := r.pinv.mem
  rw [hb] at hperm
  obtain ⟨bs, i⟩ := Memory.reach_inv hv
  have hlive := List.Perm.eq_nil hperm
  rw [i.live] at hlive
  have hbs : bs = [] := by simpa [Memory.bufs] using hlive
  subst hbs
  exact ⟨i.alloc, hplanes, by simpa using i.perm⟩

/-! ### Planes are large enough -/

/-- **C43** (rows).  In every state, the stride of a live video frame is the least multiple of the
alignment that holds a row of samples. -/
theorem C43_stride (h : Reach thr limit align sys rnd w s) (ha : 0 < align) {g : Nat} {f : Frame}
    (hf : w.frames.get g = some f) (hv : f.fmt.audio = false) :
    f.stride % align = 0 ∧ f.width * f.fmt.bps ≤ f.stride ∧
    f.stride < f.width * f.fmt.bps + align := by
  obtain ⟨sf, hg, hr⟩ := (reach_rel h).found g f hf
  have := reach_stride h g sf hg (by rw [hr.fmt]; exact hv)
  rw [hr.stride, hr.width, hr.fmt] at this
  rw [this]
  unfold strideOf
  have h1 := Nat.div_add_mod (f.width * f.fmt.bps + (align - 1)) align
  have h2 := Nat.mod_lt (f.width * f.fmt.bps + (align - 1)) ha
  rw [Nat.mul_comm] at h1
  exact ⟨Nat.mul_mod_left _ _, by omega, by omega⟩

/-- **C43** (partial: the sources given to `newVideoFrame2` must have the sample size of the new
frame, which the code does not check, see `C43_mixed_depth_refuted`).  In every state, the pointer
of a plane of a video frame covers stride times height bytes, reading any of them is defined; and
the pointer of a channel of an audio frame covers all samples of a frame. -/
theorem C43_plane_size_partial (h : ReachD thr limit align sys rnd w s) {g : Nat} {f : Frame}
    (hf : w.frames.get g = some f) {p : Int} (h0 : 0 ≤ p) (hp : p < f.fmt.numPlanes) {off : Nat}
    (ho : off < if f.fmt.audio = true then f.fmt.bps * 3072 else
      strideOf align (f.widthOf p.toNat) f.fmt.bps * f.heightOf p.toNat) :
    ∃ b, readByte w g p off = .ok (some b) := by
  have r := reach_rel h.reach
  obtain ⟨sf, hg, hr⟩ := r.found g f hf
  have hp' : p < sf.fmt.numPlanes := by rw [hr.fmt]; exact hp
  obtain ⟨sp, hs⟩ := plane_exists r hg h0 hp'
  rw [readByte_eq r hg h0 hp' hs]
  refine ⟨_, if_pos ?_⟩
  by_cases ha : f.fmt.audio = true
  · obtain ⟨a1, _, a3⟩ := hr.audio ha
    have ha' : sf.fmt.audio = true := by rw [hr.fmt]; exact ha
    have : sf.slot p.toNat = 0 := by simp [SFrame.slot, ha']
    rw [this] at hs
    have hsz := a3 sp hs
    rw [if_pos ha] at ho
    rw [if_pos ha', hsz, hr.stride]
    have h1 : (p.toNat + 1) * f.stride ≤ f.stride * f.fmt.numPlanes := by
      rw [Nat.mul_comm f.stride]
      exact Nat.mul_le_mul_right _ (by omega)
    rw [Nat.succ_mul] at h1
    have h2 : f.stride = f.fmt.bps * 3072 := a1
    rw [← h2] at ho
    omega
  · have ha' : ¬ sf.fmt.audio = true := by rw [hr.fmt]; exact ha
    have hsl : sf.slot p.toNat = p.toNat := by simp [SFrame.slot, ha']
    rw [hsl] at hs
    have := (reachD_full h).2 g sf hg (by simpa using ha') _ _ hs
    rw [if_neg ha] at ho
    rw [if_neg ha', this]
    simp only [videoSize, hr.width, hr.height, hr.fmt]
    simp only [Frame.widthOf, Frame.heightOf] at ho
    omega

/-- **C43** (new frames).  Every plane of a frame made by `newVideoFrame` has its full size. -/
theorem C43_new_video (h : Reach thr limit align sys rnd w s) {fmt : Fmt} {x y : Int}
    {junk : Nat → Nat → Nat} {w' : World} {g : Nat} (hl : s.Legal (.newVideo fmt x y junk))
    (e : step w (.newVideo fmt x y junk) = .ok (w', .frame g)) {p : Int} (h0 : 0 ≤ p)
    (hp : p < fmt.numPlanes) {off : Nat}
    (ho : off < videoSize w.align fmt x.toNat y.toNat p.toNat) :
    readByte w' g p off = .ok (some (junk p.toNat off)) := by
  have r := reach_rel h
  have r' := reach_rel (Reach.call h hl e)
  obtain ⟨h1, h2, h3, h4, h5⟩ := hl
  rcases newVideo2_rel r (srcs := List.replicate fmt.numPlanes none) (junk := junk) h1 h2 h3
      (by simp) (by intro i hi; simp only [List.getElem_replicate]; exact h5 i (by simpa using hi))
      with ⟨w2, e2, _⟩ | e2
  · simp only [step, newVideo, made, e2, Res.bind_ok, Res.ok.injEq, Prod.mk.injEq,
      Out.frame.injEq] at e
    obtain ⟨rfl, rfl⟩ := e
    have hg : (s.next (.newVideo fmt x y junk) (.frame s.frames.length)).frames.get
        s.frames.length = some (s.video fmt x.toNat y.toNat (List.replicate fmt.numPlanes none) junk) :=
      Heap.get_alloc_self _ _
    have hp' : p < (s.video fmt x.toNat y.toNat (List.replicate fmt.numPlanes none) junk).fmt.numPlanes := hp
    obtain ⟨sp, hs⟩ := plane_exists r' hg h0 hp'
    have hau : (s.video fmt x.toNat y.toNat (List.replicate fmt.numPlanes none) junk).fmt.audio = false := h1
    rw [readByte_eq r' hg h0 hp' hs]
    have hsl : (s.video fmt x.toNat y.toNat (List.replicate fmt.numPlanes none) junk).slot p.toNat = p.toNat := by
      simp [SFrame.slot, hau]
    rw [hsl] at hs
    obtain ⟨src, q1, q2⟩ := initials_get s _ _ _ 0 _ _ hs
    have hsrc := List.eq_of_mem_replicate (List.mem_of_getElem? q1)
    rw [hsrc, Nat.zero_add] at q2
    simp only [SWorld.initial] at q2
    rw [q2]
    simp only [hau, Bool.false_eq_true, if_false, Nat.zero_add]
    rw [r.align, if_pos ho]
  · simp [step, newVideo, made, e2] at e

/-! ### Examples and refutations -/

/-- 8 bit gray, 8 bit 4:2:0, 16 bit gray and 16 bit stereo. -/
def gray8 : Fmt := ⟨false, 1, 1, 0, 0⟩
def yuv420 : Fmt := ⟨false, 3, 1, 1, 1⟩
def gray16 : Fmt := ⟨false, 1, 2, 0, 0⟩
def stereo : Fmt := ⟨true, 2, 2, 0, 0⟩

/-- The tapes of the examples: addresses for ten planes. -/
def tape : List (Option Nat) := (List.range 10).map (fun i => some (1048576 * (i + 1)))

/-- The start of the examples. -/
def w0 : World := World.start 1048576 100000000 32 tape []

/-- A YUV frame, a copy of it, a gray frame made of its chroma plane, and two audio frames. -/
def demo : List Op :=
  [.newVideo yuv420 64 4 (fun i x => i * 10 + x % 3),
   .copyFrame 0,
   .newVideo2 gray8 32 2 [some (0, 2)] (fun _ _ => 0),
   .newAudio stereo 100 (fun x => x % 7),
   .newAudio2 stereo 100 [some (3, 1), none] (fun _ => 9)]

/-- What a reader sees. -/
def peek (w : World) (g : Nat) (p : Int) (off : Nat) : Option Nat :=
  match readByte w g p off with
  | .ok b => b
  | _ => none

/-- After the demo: sharing, then a write to the copy and a write to the original. -/
def demoSeen : Option (List (Option Nat) × Nat × List (Option Nat)) :=
  match play w0 ⟨[], [], 32⟩ demo with
  | none => none
  | some (w, s) =>
    match step w (.getWritePtr 1 2) with
    | .ok (w1, .ptr (some a)) =>
      match step w1 (.store ⟨a.buf, a.off + 1⟩ 77) with
      | .ok (w2, _) => some ([peek w 0 2 1, peek w 1 2 1, peek w 2 0 1, peek w 4 0 5, peek w 4 1 5],
          w.ps.mem.allocated,
          [peek w2 0 2 1, peek w2 1 2 1, peek w2 2 0 1, s.read 0 2 1, s.read 4 0 5])
      | _ => none
    | _ => none

/-- The hypotheses of the theorems above are met by this history; the write to frame 1 is seen only
there. -/
example : demoSeen = some ([some 21, some 21, some 21, some 3, some 9], 25280,
    [some 21, some 77, some 21, some 21, some 3]) := by decide +kernel

example : ∃ w s, Reach 1048576 100000000 32 tape [] w s ∧ s.frames.length = 5 := by
  cases e : play w0 ⟨[], [], 32⟩ demo with
  | none =>
    have : (play w0 ⟨[], [], 32⟩ demo).isSome = true := by decide +kernel
    rw [e] at this; simp at this
  | some r =>
    obtain ⟨w, s⟩ := r
    refine ⟨w, s, reach_of_play demo Reach.start e, ?_⟩
    have : ((play w0 ⟨[], [], 32⟩ demo).map (fun r => r.2.frames.length)) = some 5 := by decide +kernel
    rw [e] at this
    simpa using this

/-- The hypothesis of `C06_no_leak` is met after the demo and five frees. -/
example : (play w0 ⟨[], [], 32⟩ (demo ++ (List.range 5).map Op.freeFrame)).map
    (fun r => (r.2.frames.all Option.isNone, r.1.ps.mem.allocated)) = some (true, 0) := by
  decide +kernel

/-- **C05** (what is not promised).  A pointer from `getWritePtr` must not be kept across
`copyFrame`: a store through the old pointer is seen in the copy as well.  The write pointer is
asked for, the frame is copied, and a byte is stored through the pointer: the copy changes from 5
to 77. -/
theorem C05_stale_pointer_refuted :
    ∃ w s w1 a w2 w3, Reach 1048576 100000000 32 tape [] w s ∧
      step w (.getWritePtr 0 0) = .ok (w1, .ptr (some a)) ∧
      step w1 (.copyFrame 0) = .ok (w2, .frame 1) ∧
      step w2 (.store a 77) = .ok (w3, .none) ∧
      peek w2 1 0 0 = some 5 ∧ peek w3 1 0 0 = some 77 := by
  refine ⟨_, _, _, _, _, _, Reach.call (op := .newVideo gray8 4 4 (fun _ _ => 5)) Reach.start
    (legalB_sound (by decide +kernel)) rfl, rfl, rfl, rfl, ?_, ?_⟩ <;> decide +kernel

/-- **C43** (refuted in general).  `newVideoFrame2` accepts a plane of an 8 bit frame as the plane of
a 16 bit frame of the same width and height.  The new frame says its rows are 128 bytes apart and
there are two of them, but the buffer has only 128 bytes: reading the second row is out of
bounds. -/
theorem C43_mixed_depth_refuted :
    ∃ w s f off, Reach 1048576 100000000 32 tape [] w s ∧ w.frames.get 1 = some f ∧
      f.stride = 128 ∧ f.height = 2 ∧ off < f.stride * f.height ∧
      readByte w 1 0 off = .ub := by
  refine ⟨_, _, ⟨1, gray16, 64, 2, [0], 128⟩, 128, Reach.call (op := .newVideo2 gray16 64 2 [some (0, 0)] (fun _ _ => 0))
    (Reach.call (op := .newVideo gray8 64 2 (fun _ _ => 5)) Reach.start
    (legalB_sound (by decide +kernel)) rfl) (legalB_sound (by decide +kernel)) rfl, rfl, rfl, rfl,
    by decide, rfl⟩

/-- **C43** (audio).  `newAudioFrame` accepts any positive number of samples, but a channel always
has room for 3072 of them: the last samples of a longer frame are out of bounds. -/
theorem C43_long_audio_refuted :
    ∃ w f, step w0 (.newAudio stereo 5000 (fun _ => 0)) = .ok (w, .frame 0) ∧
      w.frames.get 0 = some f ∧ f.width = 5000 ∧
      readByte w 0 1 (4999 * f.fmt.bps) = .ub := by
  exact ⟨_, _, rfl, rfl, rfl, rfl⟩

end VS.Frame
