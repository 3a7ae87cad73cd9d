import Verif.Memory.Lemmas

/-!
# C07, C08, C09: the frame allocator
-/

namespace VS.Memory
open VS

/-- A history used as the example of the theorems below: two large buffers and a small one, the
large ones returned, one taken from the pool again. -/
def demo : List Op :=
  [.setLimit 6000000 [], .allocate 2000000 (some 64), .allocate 2100000 (some 4000000),
   .allocate 100 (some 8000000), .deallocate 128 [], .deallocate 4000064 [3],
   .allocate 1990000 none]

/-- The state and view of a user after a history, if every call keeps the contract. -/
def play (m : Mem) (v : View) : List Op → Option (Mem × View)
  | [] => some (m, v)
  | op :: t =>
    match step m op with
    | .ok (m', a) => play m' (v.next op a) t
    | _ => none

/-- Does a history keep the contract? -/
def keeps (m : Mem) (v : View) : List Op → Bool
  | [] => true
  | op :: t =>
    (match op with
      | .allocate n _ => n < SZ - 1 - 4095 - 64 && !v.freed
      | .deallocate p _ => v.live.any (fun b => b.ptr = p)
      | .setLimit _ _ => !v.freed
      | .coreFreed => !v.freed) &&
    match step m op with
    | .ok (m', a) => keeps m' (v.next op a) t
    | _ => false

theorem reach_of_keeps {thr limit : Nat} : ∀ (ops : List Op) {m : Mem} {v : View},
    Reach thr limit m v → keeps m v ops = true →
    ∃ m' v', play m v ops = some (m', v') ∧ Reach thr limit m' v' := by
  intro ops
  induction ops with
  | nil => intro m v h _; exact ⟨m, v, rfl, h⟩
  | cons op t ih =>
    intro m v h k
    simp only [keeps, Bool.and_eq_true] at k
    obtain ⟨k1, k2⟩ := k
    have hl : v.Legal op := by
      cases op with
      | allocate n ch =>
        simp only [Bool.and_eq_true, decide_eq_true_eq, Bool.not_eq_true'] at k1
        exact k1
      | deallocate p ch =>
        simp only [List.any_eq_true, decide_eq_true_eq] at k1
        exact k1
      | setLimit n ch => simpa [View.Legal] using k1
      | coreFreed => simpa [View.Legal] using k1
    cases e : step m op with
    | ok r =>
      obtain ⟨m', a⟩ := r
      rw [e] at k2
      simp only at k2
      obtain ⟨m2, v2, e2, h2⟩ := ih (Reach.call h hl e) k2
      exact ⟨m2, v2, by simp only [play, e]; exact e2, h2⟩
    | err x => rw [e] at k2; simp at k2
    | fatal x => rw [e] at k2; simp at k2
    | ub => rw [e] at k2; simp at k2

/-- **C07.**  Whatever happened before, a buffer handed out lies inside a block the allocator owns
with the whole requested size available, is 64-aligned, and no byte of it belongs to another
outstanding buffer.  If it came from the pool the block exceeds the page-rounded need by at most an
eighth; a fresh block is never larger than the page-rounded need. -/
theorem C07_buffer {thr limit : Nat} {m m' : Mem} {v : View} {n p : Nat} {ch : Option Nat}
    (h : Reach thr limit m v) (hl : v.Legal (.allocate n ch))
    (hs : step m (.allocate n ch) = .ok (m', some p)) :
    ∃ b ∈ m'.owned, holds b ⟨p, n⟩ ∧ p % 64 = 0 ∧
      (∀ u ∈ v.live, apart p n u.ptr u.req) ∧
      ((b ∈ m.pool ∧ b.size ≤ ceilTo (n + 64) 4096 + ceilTo (n + 64) 4096 / 8) ∨
       (b ∉ m.owned ∧ b.size ≤ ceilTo (n + 64) 4096)) := by
  obtain ⟨bs, i⟩ := reach_inv h
  obtain ⟨m1, a1, bs1, e1, i1⟩ := step_inv i hl
  rw [hs] at e1
  simp only [Res.ok.injEq, Prod.mk.injEq] at e1
  obtain ⟨rfl, rfl⟩ := e1
  have halloc : allocate m n ch = (m', some p) := by
    unfold step at hs
    split at hs
    · simp at hs
    · simpa using hs
  obtain ⟨b, b1, b2, b3, b4, b5⟩ := allocate_core i.toCore hl.1 halloc
  have hb : b ∈ m'.owned := b4.perm.mem_iff.2 (by simp)
  refine ⟨b, hb, ⟨b1, ?_⟩, ?_, ?_, ?_⟩
  · show p + n ≤ _; omega
  · have := b4.ok b hb; omega
  · intro u hu
    rw [i.live] at hu
    obtain ⟨⟨c, r⟩, hc, rfl⟩ := List.mem_map.1 hu
    have hfit := i.fit _ hc
    have hcm : c ∈ (((b, n) :: bs).map Prod.fst) := by
      simp only [List.map_cons]
      exact List.mem_cons_of_mem _ (List.mem_map.2 ⟨(c, r), hc, rfl⟩)
    have hco : c ∈ m'.owned := b4.perm.mem_iff.2 (List.mem_append.2 (Or.inl hcm))
    have hne : b ≠ c := by
      intro e
      have hnd := b4.perm.nodup_iff.1 b4.nodup
      simp only [List.map_cons, List.cons_append, List.nodup_cons] at hnd
      exact hnd.1 (List.mem_append.2 (Or.inl (List.mem_map.2 ⟨(c, r), hc, e.symm⟩)))
    intro x hx
    have hfit' : r + 64 ≤ c.size := hfit
    rcases disj_of_pairwise b4.disj hb hco hne with hd | hd <;> simp only at hx <;> omega
  · rcases b5 with ⟨x1, _, x2, x3, _⟩ | ⟨x1, x2, _⟩
    · exact Or.inl ⟨x1, by omega⟩
    · exact Or.inr ⟨x1, x2⟩

/-- **C07** (all outstanding buffers).  At any time the outstanding buffers are pairwise apart, and
each lies with its header inside a block the allocator owns and has not pooled. -/
theorem C07_live_apart {thr limit : Nat} {m : Mem} {v : View} (h : Reach thr limit m v) :
    v.live.Pairwise (fun a b => apart a.ptr a.req b.ptr b.req) ∧
    ∀ u ∈ v.live, u.ptr % 64 = 0 ∧ ∃ b ∈ m.owned, b ∉ m.pool ∧ holds b u := by
  obtain ⟨bs, i⟩ := reach_inv h
  have hnd := i.perm.nodup_iff.1 i.nodup
  have hnd' := List.nodup_append.1 hnd
  constructor
  · rw [i.live]
    unfold bufs
    refine List.pairwise_map.2 ?_
    have h1 : bs.Pairwise (fun a b => a.1 ≠ b.1) := List.pairwise_map.1 hnd'.1
    refine List.Pairwise.imp_of_mem ?_ h1
    intro a b ha hb hne x hx
    have ha' : a.1 ∈ m.owned := i.perm.mem_iff.2 (List.mem_append.2 (Or.inl (List.mem_map.2 ⟨a, ha, rfl⟩)))
    have hb' : b.1 ∈ m.owned := i.perm.mem_iff.2 (List.mem_append.2 (Or.inl (List.mem_map.2 ⟨b, hb, rfl⟩)))
    have := i.fit a ha
    have := i.fit b hb
    rcases disj_of_pairwise i.disj ha' hb' hne with hd | hd <;> simp only at hx <;> omega
  · intro u hu
    rw [i.live] at hu
    obtain ⟨a, ha, rfl⟩ := List.mem_map.1 hu
    have hm : a.1 ∈ bs.map Prod.fst := List.mem_map.2 ⟨a, ha, rfl⟩
    have ha' : a.1 ∈ m.owned := i.perm.mem_iff.2 (List.mem_append.2 (Or.inl hm))
    have hk := i.ok a.1 ha'
    have hf := i.fit a ha
    refine ⟨by simp only; omega, a.1, ha', ?_, rfl, by simp only; omega⟩
    intro hp
    exact hnd'.2.2 a.1 hm a.1 hp rfl

/-- **C07** (the pool is used).  When some pooled block fits the page-rounded need within an eighth,
a large allocation succeeds even if the system has no memory left, takes the smallest block that is
large enough, and asks the system for nothing. -/
theorem C07_best_fit {thr limit : Nat} {m : Mem} {v : View} {n : Nat} {ch : Option Nat}
    (h : Reach thr limit m v) (hl : v.Legal (.allocate n ch)) (ha : m.deleted = false)
    (hbig : m.thr < ceilTo (n + 64) 4096) {x : Block} (hx : x ∈ m.pool)
    (h1 : ceilTo (n + 64) 4096 ≤ x.size)
    (h2 : x.size ≤ ceilTo (n + 64) 4096 + ceilTo (n + 64) 4096 / 8) :
    ∃ m' b, step m (.allocate n ch) = .ok (m', some (b.addr + 64)) ∧ b ∈ m.pool ∧
      m'.owned = m.owned ∧ ceilTo (n + 64) 4096 ≤ b.size ∧
      ∀ y ∈ m.pool, ceilTo (n + 64) 4096 ≤ y.size → b.size ≤ y.size := by
  obtain ⟨bs, i⟩ := reach_inv h
  obtain ⟨f1, f2, f3, f4, f5⟩ := ceil_facts n hl.1
  cases e : allocFromPool m (ceilTo (n + 64) 4096) with
  | none =>
    have := allocFromPool_none i.toCore e x hx h1
    omega
  | some r =>
    obtain ⟨m', p⟩ := r
    obtain ⟨b, b1, b2, b3, b4, b5, b6, b7, b8⟩ := allocFromPool_core i.toCore (r := n) (by omega) e
    refine ⟨m', b, ?_, b1, b7, b2, b4⟩
    have hal : allocate m n ch = (m', some (b.addr + 64)) := by
      simp only [allocate, f1, f2]
      rw [if_neg (by omega), e, b5]
    simp only [step, ha, hal]
    simp

/-- The asserted bound on the size is needed: it is not checked in a release build, and the largest
sizes wrap around to a block smaller than the request. -/
theorem C07_huge_wraps :
    allocate (Mem.new POOL_THRESHOLD 1000) (SZ - 64) (some 4096) =
      ({ Mem.new POOL_THRESHOLD 1000 with owned := [⟨4096, 0⟩] }, some 4160) := by
  decide +kernel

/-- **C08** (counters).  The two counters are the total size of the blocks behind outstanding
buffers, and the total size of the pooled blocks. -/
theorem C08_counters {thr limit : Nat} {m : Mem} {v : View} (h : Reach thr limit m v) :
    ∃ bl : List Block, m.owned.Perm (bl ++ m.pool) ∧
      bl.map (fun b => b.addr + 64) = v.live.map Buf.ptr ∧
      m.allocated = total bl ∧ m.poolSize = total m.pool ∧ m.limit = v.limit := by
  obtain ⟨bs, i⟩ := reach_inv h
  refine ⟨bs.map Prod.fst, i.perm, ?_, i.alloc, i.pooled, i.lim⟩
  rw [i.live]; simp [bufs]

/-- **C08** (limit change).  After a change of the limit, whatever the random choices, live plus
pooled memory is within the new limit or the pool is empty. -/
theorem C08_set_limit {thr limit : Nat} {m m' : Mem} {v : View} {n : Nat} {ch : List Nat}
    {a : Option Nat} (h : Reach thr limit m v) (hl : v.Legal (.setLimit n ch))
    (hs : step m (.setLimit n ch) = .ok (m', a)) :
    m'.limit = n ∧ (m'.allocated + total m'.pool ≤ n ∨ m'.pool = []) := by
  obtain ⟨bs, i⟩ := reach_inv h
  have c := i.toCore
  have c1 : Core { m with limit := n } { v with limit := n } bs :=
    ⟨c.live, c.perm, c.disj, c.ok, c.fit, c.alloc, c.pooled, c.sorted, c.big, rfl, c.freed⟩
  obtain ⟨m1, e, c2, s, t⟩ := gc_core ch c1
  unfold step at hs
  split at hs
  · simp at hs
  · simp only [setLimit, e, Res.bind_ok, Res.ok.injEq, Prod.mk.injEq] at hs
    obtain ⟨rfl, _⟩ := hs
    have h1 : m1.limit = n := s.2.1
    refine ⟨h1, ?_⟩
    rw [← c2.pooled, ← h1]
    exact t.1

/-- **C08** (free), the part that holds: after returning a large buffer, whatever the random
choices, live plus pooled memory is within the limit or the pool is empty.  What is missing is the
return of a small buffer, see `C08_small_free_refuted`. -/
theorem C08_large_free_partial {thr limit : Nat} {m m' : Mem} {v : View} {p : Nat} {ch : List Nat}
    {a : Option Nat} {b : Block} (h : Reach thr limit m v) (hl : v.Legal (.deallocate p ch))
    (hb : b ∈ m.owned) (hp : p = b.addr + 64) (hbig : m.thr < b.size)
    (hs : step m (.deallocate p ch) = .ok (m', a)) :
    m'.allocated + total m'.pool ≤ v.limit ∨ m'.pool = [] := by
  obtain ⟨bs, i⟩ := reach_inv h
  have ha : m.deleted = false := by
    unfold step at hs
    split at hs
    · simp at hs
    · rename_i hd; simpa using hd
  obtain ⟨b', m1, bs', e0, e1, h2, h3, _, _, h4, _⟩ := release_core i.toCore ha hl ch
  obtain ⟨m2, e2, i2, e3⟩ := maybeDestroy_inv h3 h2
  have hbb : b' = b := by
    obtain ⟨b2, r, bs2, x1, x2, x3, x4, x5, x6⟩ := i.toCore.take hl
    rw [x6] at e0
    simp only [Res.ok.injEq] at e0
    subst e0
    exact i.toCore.distinct x1 hb (by omega)
  subst hbb
  simp only [step, ha, deallocate, e0, e1, e2, Res.bind_ok, Res.ok.injEq, Prod.mk.injEq,
    Bool.false_eq_true, if_false] at hs
  obtain ⟨rfl, _⟩ := hs
  by_cases hd : m2.deleted = true
  · exact Or.inr (i2.gone hd)
  · rw [if_neg hd] at e3
    subst e3
    rcases (h4 hbig).1 with t | t
    · left
      rw [← h3.pooled]
      have : m2.limit = v.limit := h3.lim
      omega
    · exact Or.inr t

/-- **C08** (free), refuted for small buffers: allocating never trims the pool and returning a small
buffer does not trim it either, so live plus pooled memory stays over the limit with a pool that is
not empty. -/
theorem C08_small_free_refuted :
    ∃ m v m' p, Reach POOL_THRESHOLD 3000000 m v ∧ v.Legal (.deallocate p []) ∧
      step m (.deallocate p []) = .ok (m', none) ∧ v.limit < m'.allocated + total m'.pool ∧
      m'.pool ≠ [] := by
  obtain ⟨m, v, e, h⟩ := reach_of_keeps (thr := POOL_THRESHOLD) (limit := 3000000)
    [.allocate 2000000 (some 64), .deallocate 128 [], .allocate 1500000 (some 4000000),
      .allocate 100 (some 8000000)] Reach.new (by decide +kernel)
  have hm : m = ⟨[⟨64, 2002944⟩], 1503424, 2002944, 3000000, false,
      [⟨8000000, 192⟩, ⟨4000000, 1503232⟩, ⟨64, 2002944⟩], false, 1048576⟩ ∧
      v = ⟨[⟨8000064, 100⟩, ⟨4000064, 1500000⟩], 3000000, false⟩ := by
    have : play (Mem.new POOL_THRESHOLD 3000000) ⟨[], 3000000, false⟩
      [.allocate 2000000 (some 64), .deallocate 128 [], .allocate 1500000 (some 4000000),
      .allocate 100 (some 8000000)] = some (⟨[⟨64, 2002944⟩], 1503424, 2002944, 3000000, false,
      [⟨8000000, 192⟩, ⟨4000000, 1503232⟩, ⟨64, 2002944⟩], false, 1048576⟩,
      ⟨[⟨8000064, 100⟩, ⟨4000064, 1500000⟩], 3000000, false⟩) := by decide +kernel
    rw [this] at e
    simp only [Option.some.injEq, Prod.mk.injEq] at e
    exact ⟨e.1.symm, e.2.symm⟩
  obtain ⟨rfl, rfl⟩ := hm
  refine ⟨_, _, ⟨[⟨64, 2002944⟩], 1503232, 2002944, 3000000, false,
      [⟨4000000, 1503232⟩, ⟨64, 2002944⟩], false, 1048576⟩, 8000064, h, ?_, by decide +kernel,
      by decide +kernel, by decide⟩
  exact ⟨⟨8000064, 100⟩, by simp, rfl⟩

/-- **C08** (nothing is thrown away needlessly).  If a limit change removes anything from the pool,
then one of the removed blocks together with what is left would still have been over the limit. -/
theorem C08_no_overtrim {thr limit : Nat} {m m' : Mem} {v : View} {n : Nat} {ch : List Nat}
    {a : Option Nat} (h : Reach thr limit m v)
    (hs : step m (.setLimit n ch) = .ok (m', a)) :
    m'.pool = m.pool ∨
    ∃ b rest, m.pool.Perm (b :: m'.pool ++ rest) ∧ n < m'.allocated + total m'.pool + b.size := by
  obtain ⟨bs, i⟩ := reach_inv h
  have c := i.toCore
  have c1 : Core { m with limit := n } { v with limit := n } bs :=
    ⟨c.live, c.perm, c.disj, c.ok, c.fit, c.alloc, c.pooled, c.sorted, c.big, rfl, c.freed⟩
  obtain ⟨m1, e, c2, s, t⟩ := gc_core ch c1
  unfold step at hs
  split at hs
  · simp at hs
  · simp only [setLimit, e, Res.bind_ok, Res.ok.injEq, Prod.mk.injEq] at hs
    obtain ⟨rfl, _⟩ := hs
    rcases t.2 with rfl | ⟨b, rest, t1, t2⟩
    · exact Or.inl rfl
    · right
      refine ⟨b, rest, t1, ?_⟩
      rw [← c2.pooled]
      have : m1.limit = n := s.2.1
      omega

/-- **C08** (nothing is thrown away needlessly, free).  Likewise for the return of a large buffer: the
pool gains its block, and if anything is missing afterwards then the limit asked for it, unless the
allocator was deleted altogether. -/
theorem C08_no_overtrim_free {thr limit : Nat} {m m' : Mem} {v : View} {p : Nat} {ch : List Nat}
    {a : Option Nat} {b : Block} (h : Reach thr limit m v) (hl : v.Legal (.deallocate p ch))
    (hb : b ∈ m.owned) (hp : p = b.addr + 64) (hbig : m.thr < b.size)
    (hs : step m (.deallocate p ch) = .ok (m', a)) (hd : m'.deleted = false) :
    m'.pool.Perm (b :: m.pool) ∨
    ∃ x rest, (b :: m.pool).Perm (x :: m'.pool ++ rest) ∧
      v.limit < m'.allocated + total m'.pool + x.size := by
  obtain ⟨bs, i⟩ := reach_inv h
  have ha : m.deleted = false := by
    unfold step at hs
    split at hs
    · simp at hs
    · rename_i hd; simpa using hd
  obtain ⟨b', m1, bs', e0, e1, h2, h3, _, _, h4, _⟩ := release_core i.toCore ha hl ch
  obtain ⟨m2, e2, i2, e3⟩ := maybeDestroy_inv h3 h2
  have hbb : b' = b := by
    obtain ⟨b2, r, bs2, x1, x2, x3, x4, x5, x6⟩ := i.toCore.take hl
    rw [x6] at e0
    simp only [Res.ok.injEq] at e0
    subst e0
    exact i.toCore.distinct x1 hb (by omega)
  subst hbb
  simp only [step, ha, deallocate, e0, e1, e2, Res.bind_ok, Res.ok.injEq, Prod.mk.injEq,
    Bool.false_eq_true, if_false] at hs
  obtain ⟨rfl, _⟩ := hs
  rw [if_neg (by simp [hd])] at e3
  subst e3
  rcases (h4 hbig).2 with rfl | ⟨x, rest, t1, t2⟩
  · exact Or.inl (emplace_perm _ _)
  · right
    refine ⟨x, rest, (emplace_perm _ _).symm.trans t1, ?_⟩
    rw [← h3.pooled]
    have : m2.limit = v.limit := h3.lim
    omega

/-- **C09** (defined).  As long as the callers keep their contract no call ever touches a deleted
allocator, frees a block twice or reads a header that is not there. -/
theorem C09_no_ub {thr limit : Nat} {m : Mem} {v : View} {op : Op} (h : Reach thr limit m v)
    (hl : v.Legal op) : ∃ m' a, step m op = .ok (m', a) := by
  obtain ⟨bs, i⟩ := reach_inv h
  obtain ⟨m', a, _, e, _⟩ := step_inv i hl
  exact ⟨m', a, e⟩

/-- **C09.**  The allocator is deleted exactly when the core is gone and no buffer is outstanding:
so never while a buffer is outstanding, and with the very call that returns the last one. -/
theorem C09_deleted_iff {thr limit : Nat} {m : Mem} {v : View} (h : Reach thr limit m v) :
    m.deleted = true ↔ v.freed = true ∧ v.live = [] := by
  obtain ⟨bs, i⟩ := reach_inv h
  exact i.del

/-- **C09** (no leak).  Once deleted every block obtained from the system has been given back, and
before that the blocks not given back are exactly those behind outstanding buffers and the pool. -/
theorem C09_no_leak {thr limit : Nat} {m : Mem} {v : View} (h : Reach thr limit m v) :
    (m.deleted = true → m.owned = []) ∧
    m.owned.length = v.live.length + m.pool.length := by
  obtain ⟨bs, i⟩ := reach_inv h
  have hlen : m.owned.length = v.live.length + m.pool.length := by
    rw [i.perm.length_eq, i.live]; simp [bufs]
  refine ⟨fun hd => ?_, hlen⟩
  rw [(i.del.1 hd).2, i.gone hd] at hlen
  exact List.length_eq_zero_iff.1 (by simpa using hlen)

/-- **C09** (once).  Nothing is called on the allocator after it is deleted: no call is legal. -/
theorem C09_once {thr limit : Nat} {m : Mem} {v : View} (h : Reach thr limit m v)
    (hd : m.deleted = true) (op : Op) : ¬ v.Legal op := by
  obtain ⟨h1, h2⟩ := (C09_deleted_iff h).1 hd
  cases op <;> simp [View.Legal, h1, h2]

/-! ### Examples -/

/-- The example history keeps the contract; the last allocation is served from the pool although
the system has no memory left. -/
example : keeps (Mem.new POOL_THRESHOLD 1000) ⟨[], 1000, false⟩ demo = true ∧
    (play (Mem.new POOL_THRESHOLD 1000) ⟨[], 1000, false⟩ demo).map (fun r => r.2.live) =
      some [⟨128, 1990000⟩, ⟨8000064, 100⟩] ∧
    (play (Mem.new POOL_THRESHOLD 1000) ⟨[], 1000, false⟩ demo).map (fun r => r.1.pool) =
      some [⟨4000000, 2101248⟩] := by decide +kernel

/-- Trimming after a limit change really removes a block. -/
example : (play (Mem.new POOL_THRESHOLD 1000) ⟨[], 1000, false⟩
    (demo ++ [.setLimit 2500000 [7]])).map (fun r => (r.1.pool, r.1.allocated)) =
      some ([], 2003136) := by decide +kernel

/-- The allocator goes away with the last buffer after the core is gone. -/
example : (play (Mem.new POOL_THRESHOLD 1000) ⟨[], 1000, false⟩
    (demo ++ [.coreFreed, .deallocate 128 [0, 0], .deallocate 8000064 []])).map
      (fun r => (r.1.deleted, r.1.owned)) = some (true, []) ∧
    (play (Mem.new POOL_THRESHOLD 1000) ⟨[], 1000, false⟩
    (demo ++ [.coreFreed, .deallocate 128 [0, 0]])).map (fun r => r.1.deleted) = some false := by
  decide +kernel

end VS.Memory
