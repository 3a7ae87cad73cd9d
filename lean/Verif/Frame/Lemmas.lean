import Verif.Frame.Spec
import Verif.Memory.Lemmas

/-! Helper lemmas: the plane store with its references. -/

namespace VS.Frame
open VS

/-- The buffers of the live planes. -/
def bufsOf (h : Heap Plane) : List Memory.Buf :=
  h.filterMap (fun o => o.map (fun p => ⟨p.buf, p.size⟩))

theorem bufsOf_alloc (h : Heap Plane) (p : Plane) :
    (bufsOf (h.alloc p)).Perm (⟨p.buf, p.size⟩ :: bufsOf h) := by
  unfold bufsOf Heap.alloc
  rw [List.filterMap_append]
  exact List.perm_append_comm

theorem bufsOf_put_none {h : Heap Plane} {i : Nat} {p : Plane} (e : h.get i = some p) :
    (bufsOf h).Perm (⟨p.buf, p.size⟩ :: bufsOf (h.put i none)) := by
  induction h generalizing i with
  | nil => simp [Heap.get] at e
  | cons o t ih =>
    cases i with
    | zero =>
      have : o = some p := by simpa [Heap.get] using e
      subst this
      simp [bufsOf, Heap.put]
    | succ i =>
      have e' : Heap.get t i = some p := by simpa [Heap.get] using e
      have := ih e'
      have e1 : Heap.put (o :: t) (i + 1) none = o :: Heap.put t i none := by simp [Heap.put]
      rw [e1]
      cases o with
      | none => simpa [bufsOf] using this
      | some q =>
        have h2 : bufsOf (some q :: t) = ⟨q.buf, q.size⟩ :: bufsOf t := by simp [bufsOf]
        have h3 : bufsOf (some q :: Heap.put t i none) = ⟨q.buf, q.size⟩ :: bufsOf (Heap.put t i none) := by
          simp [bufsOf]
        rw [h2, h3]
        exact (List.Perm.cons _ this).trans (List.Perm.swap _ _ _)

theorem bufsOf_put_same {h : Heap Plane} {i : Nat} {p q : Plane} (e : h.get i = some p)
    (hb : q.buf = p.buf) (hs : q.size = p.size) : bufsOf (h.put i (some q)) = bufsOf h := by
  induction h generalizing i with
  | nil => simp [Heap.get] at e
  | cons o t ih =>
    cases i with
    | zero =>
      have : o = some p := by simpa [Heap.get] using e
      subst this
      simp [bufsOf, Heap.put, hb, hs]
    | succ i =>
      have e' : Heap.get t i = some p := by simpa [Heap.get] using e
      have := ih e'
      have e1 : Heap.put (o :: t) (i + 1) (some q) = o :: Heap.put t i (some q) := by simp [Heap.put]
      rw [e1]
      cases o <;> simpa [bufsOf] using this

theorem mem_bufsOf {h : Heap Plane} {i : Nat} {p : Plane} (e : h.get i = some p) :
    (⟨p.buf, p.size⟩ : Memory.Buf) ∈ bufsOf h :=
  (bufsOf_put_none e).mem_iff.2 (by simp)

theorem bufs_unique {h : Heap Plane} (hn : ((bufsOf h).map Memory.Buf.ptr).Nodup) {i j : Nat}
    {p q : Plane} (ei : h.get i = some p) (ej : h.get j = some q) (hb : p.buf = q.buf) : i = j := by
  by_cases hij : i = j
  · exact hij
  · exfalso
    have hp := (bufsOf_put_none ei).map Memory.Buf.ptr
    have hn' := hp.nodup_iff.1 hn
    simp only [List.map_cons, List.nodup_cons] at hn'
    apply hn'.1
    have ej' : (h.put i none).get j = some q := by rw [Heap.get_put_ne none hij]; exact ej
    rw [hb]
    exact List.mem_map.2 ⟨_, mem_bufsOf ej', rfl⟩

theorem findBuf_eq {buf : Nat} : ∀ {h : Heap Plane} {id k : Nat} {p : Plane},
    h.get id = some p → p.buf = buf →
    (∀ j q, h.get j = some q → q.buf = buf → j = id) → findBuf buf h k = some (k + id) := by
  intro h
  induction h with
  | nil => intro id k p e; simp [Heap.get] at e
  | cons o t ih =>
    intro id k p e hb hu
    cases id with
    | zero =>
      have : o = some p := by simpa [Heap.get] using e
      subst this
      simp [findBuf, hb]
    | succ id =>
      have e' : Heap.get t id = some p := by simpa [Heap.get] using e
      have hu' : ∀ j q, Heap.get t j = some q → q.buf = buf → j = id := by
        intro j q ej hq
        have := hu (j + 1) q (by simpa [Heap.get] using ej) hq
        omega
      have := ih (k := k + 1) e' hb hu'
      cases o with
      | none => simp only [findBuf, this]; congr 1; omega
      | some q =>
        simp only [findBuf]
        have hq : q.buf ≠ buf := fun hq => by
          have := hu 0 q (by simp [Heap.get]) hq
          omega
        rw [if_neg hq, this]; congr 1; omega

/-! ### The allocator as seen from the planes -/

theorem reach_nodup {thr limit : Nat} {m : Memory.Mem} {v : Memory.View}
    (h : Memory.Reach thr limit m v) : (v.live.map Memory.Buf.ptr).Nodup := by
  obtain ⟨bs, i⟩ := Memory.reach_inv h
  rw [i.live]
  unfold Memory.bufs
  rw [List.map_map]
  have hnd := i.perm.nodup_iff.1 i.toCore.nodup
  have h1 := (List.nodup_append.1 hnd).1
  have h2 : bs.Pairwise (fun a b => a.1 ≠ b.1) := List.pairwise_map.1 h1
  refine List.pairwise_map.2 (List.Pairwise.imp_of_mem ?_ h2)
  intro a b ha hb hne hp
  have ha' : a.1 ∈ m.owned := i.perm.mem_iff.2 (List.mem_append.2 (Or.inl (List.mem_map.2 ⟨a, ha, rfl⟩)))
  have hb' : b.1 ∈ m.owned := i.perm.mem_iff.2 (List.mem_append.2 (Or.inl (List.mem_map.2 ⟨b, hb, rfl⟩)))
  exact hne (i.toCore.distinct ha' hb' (by simpa using hp))

theorem eraseP_perm {l r : List Memory.Buf} {x : Memory.Buf} (hn : (l.map Memory.Buf.ptr).Nodup)
    (hp : l.Perm (x :: r)) : (l.eraseP (fun u => u.ptr = x.ptr)).Perm r := by
  have hx : x ∈ l := hp.mem_iff.2 (by simp)
  obtain ⟨a, l1, l2, _, ha, e1, e2⟩ :=
    List.exists_of_eraseP (p := fun u : Memory.Buf => decide (u.ptr = x.ptr)) hx (by simp)
  have ha' : a.ptr = x.ptr := by simpa using ha
  have hax : a = x := by
    have hmem : a ∈ x :: r := hp.mem_iff.1 (by rw [e1]; simp)
    rcases List.mem_cons.1 hmem with h | h
    · exact h
    · exfalso
      have := (hp.map Memory.Buf.ptr).nodup_iff.1 hn
      simp only [List.map_cons, List.nodup_cons] at this
      exact this.1 (ha' ▸ List.mem_map.2 ⟨a, h, rfl⟩)
  subst hax
  rw [e2]
  have : (a :: (l1 ++ l2)).Perm (a :: r) := by
    refine List.Perm.trans ?_ hp
    rw [e1]
    exact List.perm_middle.symm
  exact this.cons_inv

/-- The plane store is well formed and `held` are all the references to planes. -/
structure PInv (thr limit : Nat) (s : PS) (held : List Nat) : Prop where
  live : ∀ id p, s.planes.get id = some p → p.ref = held.count id ∧ 0 < p.ref ∧ p.size < 9223372036854775808
  dead : ∀ id, s.planes.get id = none → held.count id = 0
  mem : ∃ v, Memory.Reach thr limit s.mem v ∧ v.freed = false ∧ v.live.Perm (bufsOf s.planes)

variable {thr limit : Nat} {s s' : PS} {held : List Nat}

theorem PInv.congr {held' : List Nat} (h : PInv thr limit s held)
    (e : ∀ id, held'.count id = held.count id) : PInv thr limit s held' :=
  ⟨fun id p hp => by rw [e]; exact h.live id p hp, fun id hn => by rw [e]; exact h.dead id hn, h.mem⟩

theorem PInv.perm {held' : List Nat} (h : PInv thr limit s held) (e : held'.Perm held) :
    PInv thr limit s held' := h.congr (fun id => e.count_eq id)

theorem PInv.nodup (h : PInv thr limit s held) : ((bufsOf s.planes).map Memory.Buf.ptr).Nodup := by
  obtain ⟨v, r, _, p⟩ := h.mem
  exact (p.map _).nodup_iff.1 (reach_nodup r)

theorem PInv.get (h : PInv thr limit s held) {id : Nat} (hm : id ∈ held) :
    ∃ p, s.planes.get id = some p := by
  cases e : s.planes.get id with
  | some p => exact ⟨p, rfl⟩
  | none =>
    have := h.dead id e
    have := List.count_pos_iff.2 hm
    omega

/-- What everybody but the holder of changed planes sees is the same. -/
def Keeps (s s' : PS) (held : List Nat) : Prop :=
  ∀ id ∈ held, ∀ p, s.planes.get id = some p →
    ∃ p', s'.planes.get id = some p' ∧ p'.buf = p.buf ∧ p'.size = p.size ∧ p'.bytes = p.bytes

theorem Keeps.refl (s : PS) (held : List Nat) : Keeps s s held :=
  fun _ _ p h => ⟨p, h, rfl, rfl, rfl⟩

theorem newPlane_inv (h : PInv thr limit s held) {n : Nat} {b : Nat → Nat} {id : Nat}
    (hn : n < 9223372036854775808) (e : newPlane s n b = .ok (s', id)) :
    PInv thr limit s' (id :: held) ∧ id = s.planes.length ∧ id ∉ held ∧
      (∃ buf, s'.planes.get id = some ⟨1, buf, n, b⟩) ∧
      (∀ j p, s.planes.get j = some p → s'.planes.get j = some p) := by
  obtain ⟨v, r, hf, hp⟩ := h.mem
  unfold newPlane at e
  obtain ⟨⟨m', a⟩, e1, e2⟩ := Memory.bind_ok_inv e
  cases a with
  | none => simp at e2
  | some buf =>
    simp only [Res.ok.injEq, Prod.mk.injEq] at e2
    obtain ⟨rfl, rfl⟩ := e2
    have hl : v.Legal (.allocate n (s.sys.headD none)) := by
      refine ⟨?_, hf⟩
      simp only [Memory.SZ]; omega
    have hge : ∀ j p, s.planes.get j = some p → j ≠ s.planes.length :=
      fun j p hj => Nat.ne_of_lt (Heap.get_lt hj)
    have hnot : s.planes.length ∉ held := fun hm => by
      obtain ⟨p, hp⟩ := h.get hm
      exact hge _ p hp rfl
    have hc : held.count s.planes.length = 0 := List.count_eq_zero.2 hnot
    refine ⟨⟨?_, ?_, ?_⟩, rfl, hnot, ⟨buf, Heap.get_alloc_self _ _⟩, ?_⟩
    · intro id p hp
      by_cases hid : id = s.planes.length
      · subst hid
        simp only [Heap.get_alloc_self, Option.some.injEq] at hp
        subst hp
        simp [hc, hn]
      · simp only [Heap.get_alloc_ne hid] at hp
        rw [List.count_cons_of_ne (fun x => hid x.symm)]
        exact h.live id p hp
    · intro id hp
      by_cases hid : id = s.planes.length
      · subst hid
        simp [Heap.get_alloc_self] at hp
      · simp only [Heap.get_alloc_ne hid] at hp
        rw [List.count_cons_of_ne (fun x => hid x.symm)]
        exact h.dead id hp
    · refine ⟨_, Memory.Reach.call r hl e1, ?_, ?_⟩
      · exact hf
      · simp only [Memory.View.next]
        exact (List.Perm.cons _ hp).trans (bufsOf_alloc s.planes ⟨1, buf, n, b⟩).symm
    · intro j p hj
      exact Heap.get_alloc_of_some hj

/-- A new plane fails only for lack of memory. -/
theorem newPlane_total (h : PInv thr limit s held) {n : Nat} {b : Nat → Nat}
    (hn : n < 9223372036854775808) :
    (∃ s' id, newPlane s n b = .ok (s', id)) ∨ newPlane s n b =
      .fatal "Failed to allocate memory for plane. Out of memory." := by
  obtain ⟨v, r, hf, hp⟩ := h.mem
  have hl : v.Legal (.allocate n (s.sys.headD none)) := by
    refine ⟨?_, hf⟩
    simp only [Memory.SZ]; omega
  obtain ⟨bs, i⟩ := Memory.reach_inv r
  obtain ⟨m', a, _, e, _⟩ := Memory.step_inv i hl
  unfold newPlane
  rw [e]
  cases a with
  | none => exact Or.inr rfl
  | some buf => exact Or.inl ⟨_, _, rfl⟩

theorem addPlane_inv (h : PInv thr limit s held) {id : Nat} (hm : id ∈ held) :
    ∃ s', addPlane s id = .ok s' ∧ PInv thr limit s' (id :: held) ∧ Keeps s s' held ∧
      (∀ j, j ≠ id → s'.planes.get j = s.planes.get j) := by
  obtain ⟨p, hp⟩ := h.get hm
  have hlt := Heap.get_lt hp
  refine ⟨_, by simp only [addPlane, plane, hp, Res.bind_ok]; rfl, ⟨?_, ?_, ?_⟩, ?_, ?_⟩
  · intro j q hj
    simp only [PS.setPlane] at hj
    by_cases hid : j = id
    · subst hid
      rw [Heap.get_put_self _ hlt] at hj
      simp only [Option.some.injEq] at hj
      subst hj
      have := h.live j p hp
      simp only [List.count_cons_self]
      exact ⟨by omega, by omega, this.2.2⟩
    · rw [Heap.get_put_ne _ (fun x => hid x.symm)] at hj
      rw [List.count_cons_of_ne (fun x => hid x.symm)]
      exact h.live j q hj
  · intro j hj
    simp only [PS.setPlane] at hj
    by_cases hid : j = id
    · subst hid
      rw [Heap.get_put_self _ hlt] at hj
      simp at hj
    · rw [Heap.get_put_ne _ (fun x => hid x.symm)] at hj
      rw [List.count_cons_of_ne (fun x => hid x.symm)]
      exact h.dead j hj
  · obtain ⟨v, r, hf, hq⟩ := h.mem
    exact ⟨v, r, hf, by simp only [PS.setPlane]; rw [bufsOf_put_same (q := { p with ref := p.ref + 1 }) hp rfl rfl]; exact hq⟩
  · intro j hj q hq
    simp only [PS.setPlane]
    by_cases hid : j = id
    · subst hid
      rw [hp] at hq
      simp only [Option.some.injEq] at hq
      subst hq
      exact ⟨_, Heap.get_put_self _ hlt, rfl, rfl, rfl⟩
    · exact ⟨q, by rw [Heap.get_put_ne _ (fun x => hid x.symm)]; exact hq, rfl, rfl, rfl⟩
  · intro j hj
    simp only [PS.setPlane]
    exact Heap.get_put_ne _ (fun x => hj x.symm)

/-- Releasing a held plane is always defined. -/
theorem releasePlane_inv {id : Nat} (h : PInv thr limit s (id :: held)) :
    ∃ s', releasePlane s id = .ok s' ∧ PInv thr limit s' held ∧ Keeps s s' held ∧
      (∀ j, j ≠ id → s'.planes.get j = s.planes.get j) := by
  obtain ⟨p, hp⟩ := h.get (List.mem_cons_self ..)
  have hlt := Heap.get_lt hp
  have hc := (h.live id p hp).1
  simp only [List.count_cons_self] at hc
  by_cases h1 : p.ref = 1
  · -- last reference
    obtain ⟨v, r, hf, hq⟩ := h.mem
    have hnd := reach_nodup r
    have hb := bufsOf_put_none hp
    have hmem : (⟨p.buf, p.size⟩ : Memory.Buf) ∈ v.live := hq.mem_iff.2 (hb.mem_iff.2 (by simp))
    have hl : v.Legal (.deallocate p.buf (s.rnd.headD [])) := ⟨_, hmem, rfl⟩
    obtain ⟨bs, i⟩ := Memory.reach_inv r
    obtain ⟨m', a, _, e, _⟩ := Memory.step_inv i hl
    have hc0 : held.count id = 0 := by omega
    refine ⟨{ s with planes := s.planes.put id none, mem := m', rnd := s.rnd.tail }, ?_,
      ⟨?_, ?_, ?_⟩, ?_, ?_⟩
    · simp only [releasePlane, plane, hp, Res.bind_ok, if_pos h1, e]
    · intro j q hj
      simp only at hj
      by_cases hid : j = id
      · subst hid
        rw [Heap.get_put_self _ hlt] at hj
        simp at hj
      · rw [Heap.get_put_ne _ (fun x => hid x.symm)] at hj
        have := h.live j q hj
        rw [List.count_cons_of_ne (fun x => hid x.symm)] at this
        exact this
    · intro j hj
      simp only at hj
      by_cases hid : j = id
      · subst hid; exact hc0
      · rw [Heap.get_put_ne _ (fun x => hid x.symm)] at hj
        have := h.dead j hj
        rw [List.count_cons_of_ne (fun x => hid x.symm)] at this
        exact this
    · refine ⟨_, Memory.Reach.call r hl e, hf, ?_⟩
      simp only [Memory.View.next]
      exact eraseP_perm (x := ⟨p.buf, p.size⟩) hnd (hq.trans hb)
    · intro j hj q hq'
      have hid : j ≠ id := fun x => by
        subst x
        exact absurd (List.count_pos_iff.2 hj) (by omega)
      exact ⟨q, by simp only; rw [Heap.get_put_ne _ (fun x => hid x.symm)]; exact hq', rfl, rfl, rfl⟩
    · intro j hj
      exact Heap.get_put_ne _ (fun x => hj x.symm)
  · refine ⟨s.setPlane id { p with ref := p.ref - 1 }, ?_, ⟨?_, ?_, ?_⟩, ?_, ?_⟩
    · simp only [releasePlane, plane, hp, Res.bind_ok, if_neg h1]
    · intro j q hj
      simp only [PS.setPlane] at hj
      by_cases hid : j = id
      · subst hid
        rw [Heap.get_put_self _ hlt] at hj
        simp only [Option.some.injEq] at hj
        subst hj
        have := (h.live j p hp).2
        simp only
        exact ⟨by omega, by omega, this.2⟩
      · rw [Heap.get_put_ne _ (fun x => hid x.symm)] at hj
        have := h.live j q hj
        rw [List.count_cons_of_ne (fun x => hid x.symm)] at this
        exact this
    · intro j hj
      simp only [PS.setPlane] at hj
      by_cases hid : j = id
      · subst hid
        rw [Heap.get_put_self _ hlt] at hj
        simp at hj
      · rw [Heap.get_put_ne _ (fun x => hid x.symm)] at hj
        have := h.dead j hj
        rw [List.count_cons_of_ne (fun x => hid x.symm)] at this
        exact this
    · obtain ⟨v, r, hf, hq⟩ := h.mem
      exact ⟨v, r, hf, by simp only [PS.setPlane]; rw [bufsOf_put_same (q := { p with ref := p.ref - 1 }) hp rfl rfl]; exact hq⟩
    · intro j hj q hq
      simp only [PS.setPlane]
      by_cases hid : j = id
      · subst hid
        rw [hp] at hq
        simp only [Option.some.injEq] at hq
        subst hq
        exact ⟨_, Heap.get_put_self _ hlt, rfl, rfl, rfl⟩
      · exact ⟨q, by rw [Heap.get_put_ne _ (fun x => hid x.symm)]; exact hq, rfl, rfl, rfl⟩
    · intro j hj
      simp only [PS.setPlane]
      exact Heap.get_put_ne _ (fun x => hj x.symm)

/-- Changing the bytes of a plane. -/
theorem setBytes_inv (h : PInv thr limit s held) {id : Nat} {p : Plane} {b : Nat → Nat}
    (hp : s.planes.get id = some p) : PInv thr limit (s.setPlane id { p with bytes := b }) held := by
  have hlt := Heap.get_lt hp
  refine ⟨?_, ?_, ?_⟩
  · intro j q hj
    simp only [PS.setPlane] at hj
    by_cases hid : j = id
    · subst hid
      rw [Heap.get_put_self _ hlt] at hj
      simp only [Option.some.injEq] at hj
      subst hj
      exact h.live j p hp
    · rw [Heap.get_put_ne _ (fun x => hid x.symm)] at hj
      exact h.live j q hj
  · intro j hj
    simp only [PS.setPlane] at hj
    by_cases hid : j = id
    · subst hid
      rw [Heap.get_put_self _ hlt] at hj
      simp at hj
    · rw [Heap.get_put_ne _ (fun x => hid x.symm)] at hj
      exact h.dead j hj
  · obtain ⟨v, r, hf, hq⟩ := h.mem
    exact ⟨v, r, hf, by simp only [PS.setPlane]; rw [bufsOf_put_same (q := { p with bytes := b }) hp rfl rfl]; exact hq⟩

end VS.Frame
