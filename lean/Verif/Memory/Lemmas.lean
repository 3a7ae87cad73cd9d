import Verif.Memory.Spec

/-! Helper lemmas and the invariant of the frame allocator. -/

namespace VS.Memory
open VS

theorem bind_ok_inv {α β : Type} {r : Res α} {f : α → Res β} {b : β} (h : (r >>= f) = .ok b) :
    ∃ a, r = .ok a ∧ f a = .ok b := by
  cases r with
  | ok a => exact ⟨a, rfl, h⟩
  | err m => simp at h
  | fatal m => simp at h
  | ub => simp at h

theorem total_append (a b : List Block) : total (a ++ b) = total a + total b := by
  induction a with
  | nil => simp [total]
  | cons x t ih => simp only [List.cons_append, total, ih]; omega

theorem total_perm {a b : List Block} (h : a.Perm b) : total a = total b := by
  induction h with
  | nil => rfl
  | cons x _ ih => simp [total, ih]
  | swap x y l => simp only [total]; omega
  | trans _ _ i j => omega

theorem emplace_perm (b : Block) (l : List Block) : (emplace b l).Perm (b :: l) := by
  induction l with
  | nil => exact List.Perm.refl _
  | cons c t ih =>
    simp only [emplace]
    split
    · exact (List.Perm.cons c ih).trans (List.Perm.swap b c t)
    · exact List.Perm.refl _

/-- Sorted by size. -/
def Sorted (l : List Block) : Prop := l.Pairwise (fun a b => a.size ≤ b.size)

theorem emplace_sorted (b : Block) {l : List Block} (h : Sorted l) : Sorted (emplace b l) := by
  induction l with
  | nil => simp [emplace, Sorted]
  | cons c t ih =>
    simp only [emplace]
    have h' := List.pairwise_cons.1 h
    split
    · rename_i hle
      refine List.pairwise_cons.2 ⟨?_, ih h'.2⟩
      intro x hx
      rcases List.mem_cons.1 ((emplace_perm b t).mem_iff.1 hx) with rfl | hx
      · exact hle
      · exact h'.1 x hx
    · rename_i hlt
      refine List.pairwise_cons.2 ⟨?_, h⟩
      intro x hx
      rcases List.mem_cons.1 hx with rfl | hx
      · omega
      · have := h'.1 x hx; omega

theorem lowerBound_some {n : Nat} {l p q : List Block} {b : Block}
    (h : lowerBound n l = some (p, b, q)) :
    l = p ++ b :: q ∧ n ≤ b.size ∧ ∀ c ∈ p, c.size < n := by
  induction l generalizing p with
  | nil => simp [lowerBound] at h
  | cons c t ih =>
    simp only [lowerBound] at h
    split at h
    · rename_i hc
      split at h
      · simp at h
      · rename_i p' c' q' e
        simp only [Option.some.injEq, Prod.mk.injEq] at h
        obtain ⟨rfl, rfl, rfl⟩ := h
        obtain ⟨h1, h2, h3⟩ := ih e
        refine ⟨by simp [← h1], h2, ?_⟩
        intro x hx
        rcases List.mem_cons.1 hx with rfl | hx
        · exact hc
        · exact h3 x hx
    · rename_i hc
      simp only [Option.some.injEq, Prod.mk.injEq] at h
      obtain ⟨rfl, rfl, rfl⟩ := h
      exact ⟨rfl, by omega, by simp⟩

theorem lowerBound_none {n : Nat} {l : List Block} (h : lowerBound n l = none) :
    ∀ c ∈ l, c.size < n := by
  induction l with
  | nil => simp
  | cons c t ih =>
    simp only [lowerBound] at h
    split at h
    · rename_i hc
      split at h
      · rename_i e
        intro x hx
        rcases List.mem_cons.1 hx with rfl | hx
        · exact hc
        · exact ih e x hx
      · simp at h
    · simp at h

theorem roundUp_eq {x n : Nat} (hn : 0 < n) (h : x + (n - 1) < SZ) : roundUp x n = ceilTo x n := by
  simp only [roundUp, ceilTo, Nat.mod_eq_of_lt h]
  have h1 := Nat.div_add_mod (x + (n - 1)) n
  rw [Nat.mul_comm] at h1
  omega

/-- The pointers of live blocks with the sizes asked for. -/
def bufs (bs : List (Block × Nat)) : List Buf := bs.map (fun p => ⟨p.1.addr + 64, p.2⟩)

/-- Blocks do not overlap (as a proposition). -/
def Disj (a b : Block) : Prop := a.addr + a.size ≤ b.addr ∨ b.addr + b.size ≤ a.addr

theorem disjoint_iff (a b : Block) : disjoint a b = true ↔ Disj a b := by
  simp [disjoint, Disj]

theorem Disj.symm {a b : Block} (h : Disj a b) : Disj b a := Or.symm h

/-- The invariant apart from the deletion of the allocator, with the live blocks as a ghost. -/
structure Core (m : Mem) (v : View) (bs : List (Block × Nat)) : Prop where
  live : v.live = bufs bs
  perm : m.owned.Perm (bs.map Prod.fst ++ m.pool)
  disj : m.owned.Pairwise Disj
  ok : ∀ b ∈ m.owned, b.addr % 64 = 0 ∧ 0 < b.addr ∧ 64 ≤ b.size
  fit : ∀ p ∈ bs, p.2 + 64 ≤ p.1.size
  alloc : m.allocated = total (bs.map Prod.fst)
  pooled : m.poolSize = total m.pool
  sorted : Sorted m.pool
  big : ∀ b ∈ m.pool, m.thr < b.size
  lim : m.limit = v.limit
  freed : m.coreFreed = v.freed

/-- The invariant. -/
structure InvB (m : Mem) (v : View) (bs : List (Block × Nat)) : Prop extends Core m v bs where
  del : m.deleted = true ↔ v.freed = true ∧ v.live = []
  gone : m.deleted = true → m.pool = []

theorem disj_of_pairwise {l : List Block} (h : l.Pairwise Disj) {a b : Block} (ha : a ∈ l)
    (hb : b ∈ l) (hab : a ≠ b) : Disj a b := by
  induction l with
  | nil => simp at ha
  | cons x t ih =>
    have hp := List.pairwise_cons.1 h
    rcases List.mem_cons.1 ha with e | ha
    · rcases List.mem_cons.1 hb with e' | hb
      · exact absurd (e.trans e'.symm) hab
      · exact e ▸ hp.1 b hb
    · rcases List.mem_cons.1 hb with e' | hb
      · exact e' ▸ (hp.1 a ha).symm
      · exact ih hp.2 ha hb

variable {m m' : Mem} {v : View} {bs : List (Block × Nat)}

theorem Core.distinct (i : Core m v bs) {a b : Block} (ha : a ∈ m.owned) (hb : b ∈ m.owned)
    (h : a.addr = b.addr) : a = b := by
  have h1 := i.ok a ha
  have h2 := i.ok b hb
  by_cases hab : a = b
  · exact hab
  · rcases disj_of_pairwise i.disj ha hb hab with hd | hd <;> omega

theorem Core.nodup (i : Core m v bs) : m.owned.Nodup := by
  refine List.Pairwise.imp_of_mem ?_ i.disj
  intro a b ha hb hd hab
  subst hab
  have := i.ok a ha
  rcases hd with hd | hd <;> omega

theorem Core.alloc_zero (i : Core m v bs) : m.allocated = 0 ↔ v.live = [] := by
  rw [i.alloc, i.live]
  cases bs with
  | nil => simp [bufs, total]
  | cons p t =>
    have := i.fit p (by simp)
    simp only [bufs, total, List.map_cons]
    constructor
    · intro h; omega
    · intro h; simp at h

theorem sysFree_ok {b : Block} (h : b ∈ m.owned) :
    sysFree m b = .ok { m with owned := m.owned.erase b } := by
  simp [sysFree, h]

theorem eraseIdx_perm {l : List Block} {k : Nat} {b : Block} (h : l[k]? = some b) :
    l.Perm (b :: l.eraseIdx k) := by
  induction l generalizing k with
  | nil => simp at h
  | cons c t ih =>
    cases k with
    | zero => simp only [List.getElem?_cons_zero, Option.some.injEq] at h; subst h; simp
    | succ k =>
      simp only [List.getElem?_cons_succ] at h
      simp only [List.eraseIdx_cons_succ]
      exact (List.Perm.cons c (ih h)).trans (List.Perm.swap b c _)

/-- The parts of the state trimming leaves alone. -/
def SameButPool (m m' : Mem) : Prop :=
  m'.allocated = m.allocated ∧ m'.limit = m.limit ∧ m'.coreFreed = m.coreFreed ∧
  m'.deleted = m.deleted ∧ m'.thr = m.thr

theorem SameButPool.trans {a b c : Mem} (h : SameButPool a b) (g : SameButPool b c) :
    SameButPool a c :=
  ⟨g.1.trans h.1, g.2.1.trans h.2.1, g.2.2.1.trans h.2.2.1, g.2.2.2.1.trans h.2.2.2.1,
    g.2.2.2.2.trans h.2.2.2.2⟩

theorem gcOne_core (c : Core m v bs) {k : Nat} (hk : k < m.pool.length) :
    ∃ m' b, gcOne m k = .ok m' ∧ Core m' v bs ∧ SameButPool m m' ∧ m.pool.Perm (b :: m'.pool) ∧
      m'.pool.length + 1 = m.pool.length ∧ m'.poolSize + b.size = m.poolSize := by
  have hb : m.pool[k]? = some m.pool[k] := List.getElem?_eq_getElem hk
  generalize m.pool[k] = b at hb
  have hp := eraseIdx_perm hb
  have ht := total_perm hp
  simp only [total] at ht
  have hmem : b ∈ m.owned :=
    c.perm.mem_iff.2 (List.mem_append.2 (Or.inr (List.mem_of_getElem? hb)))
  have hperm : m.owned.Perm (b :: (bs.map Prod.fst ++ m.pool.eraseIdx k)) :=
    c.perm.trans ((List.Perm.append_left _ hp).trans List.perm_middle)
  have e : gcOne m k = .ok { m with pool := m.pool.eraseIdx k, poolSize := m.poolSize - b.size, owned := m.owned.erase b } := by
    simp only [gcOne, hb]
    exact sysFree_ok (m := { m with pool := m.pool.eraseIdx k, poolSize := m.poolSize - b.size })
      hmem
  refine ⟨_, b, e, ?_, ⟨rfl, rfl, rfl, rfl, rfl⟩, hp,
    (by have := hp.length_eq; simp only [List.length_cons] at this; exact this.symm), ?_⟩
  · constructor
    · exact c.live
    · have := List.Perm.erase b hperm
      simpa using this
    · exact c.disj.sublist List.erase_sublist
    · exact fun x hx => c.ok x (List.mem_of_mem_erase hx)
    · exact c.fit
    · exact c.alloc
    · show m.poolSize - b.size = _
      rw [c.pooled, ht]; simp
    · exact c.sorted.sublist (List.eraseIdx_sublist _ _)
    · exact fun x hx => c.big x (List.mem_of_mem_eraseIdx hx)
    · exact c.lim
    · exact c.freed
  · show m.poolSize - b.size + b.size = m.poolSize
    rw [c.pooled, ht]; omega

/-- Result of trimming: within the limit or nothing left, and the last block removed was needed. -/
def Trimmed (m m' : Mem) : Prop :=
  (m'.allocated + m'.poolSize ≤ m'.limit ∨ m'.pool = []) ∧
  (m' = m ∨ ∃ b rest, m.pool.Perm (b :: m'.pool ++ rest) ∧
    m'.limit < m'.allocated + m'.poolSize + b.size)

theorem gcLoop_core (fuel : Nat) : ∀ {m : Mem} (choices : List Nat), Core m v bs →
    m.pool.length ≤ fuel →
    ∃ m', gcLoop fuel m choices = .ok m' ∧ Core m' v bs ∧ SameButPool m m' ∧ Trimmed m m' := by
  induction fuel with
  | zero =>
    intro m choices c h
    have : m.pool = [] := by cases hp : m.pool with
      | nil => rfl
      | cons => rw [hp] at h; simp at h
    exact ⟨m, rfl, c, ⟨rfl, rfl, rfl, rfl, rfl⟩, Or.inr this, Or.inl rfl⟩
  | succ fuel ih =>
    intro m choices c h
    unfold gcLoop
    split
    · rename_i hgt
      split
      · rename_i he
        exact ⟨m, rfl, c, ⟨rfl, rfl, rfl, rfl, rfl⟩, Or.inr he, Or.inl rfl⟩
      · rename_i hne
        have hlen : 0 < m.pool.length := List.length_pos_iff.2 hne
        obtain ⟨m1, b, e1, c1, s1, p1, l1, z1⟩ :=
          gcOne_core c (Nat.mod_lt (choices.headD 0) hlen)
        obtain ⟨m2, e2, c2, s2, t2, r2⟩ := ih choices.tail c1 (by omega)
        refine ⟨m2, by rw [e1]; exact e2, c2, s1.trans s2, t2, Or.inr ?_⟩
        rcases r2 with rfl | ⟨b', rest, p2, g2⟩
        · refine ⟨b, [], by simpa using p1, ?_⟩
          have := s1.1; have := s1.2.1
          omega
        · refine ⟨b', b :: rest, ?_, g2⟩
          exact p1.trans ((List.Perm.cons b p2).trans (List.perm_middle).symm)
    · exact ⟨m, rfl, c, ⟨rfl, rfl, rfl, rfl, rfl⟩, Or.inl (by omega), Or.inl rfl⟩

theorem gc_core (choices : List Nat) (c : Core m v bs) :
    ∃ m', gc m choices = .ok m' ∧ Core m' v bs ∧ SameButPool m m' ∧ Trimmed m m' :=
  gcLoop_core _ choices c (Nat.le_refl _)

/-! ### Deletion -/

theorem freeAll_ok (l : List Block) : ∀ {m : Mem} {rest : List Block}, m.owned.Perm (l ++ rest) →
    ∃ o, freeAll l m = .ok { m with owned := o } ∧ o.Perm rest := by
  induction l with
  | nil => intro m rest h; exact ⟨m.owned, rfl, h⟩
  | cons b t ih =>
    intro m rest h
    have hb : b ∈ m.owned := h.mem_iff.2 (by simp)
    have h' : (m.owned.erase b).Perm (t ++ rest) := by
      have := List.Perm.erase b h
      simpa using this
    obtain ⟨o, e, p⟩ := ih (m := { m with owned := m.owned.erase b }) h'
    exact ⟨o, by simp only [freeAll, sysFree_ok hb, Res.bind_ok]; exact e, p⟩

theorem maybeDestroy_inv (c : Core m v bs) (ha : m.deleted = false) :
    ∃ m', maybeDestroy m = .ok m' ∧ InvB m' v bs ∧
      m' = (if m'.deleted then { m with pool := [], poolSize := 0, owned := [], deleted := true } else m) := by
  unfold maybeDestroy
  split
  · rename_i h
    have hl := c.alloc_zero.1 h.2
    have hbs : bs = [] := by
      have := c.live; rw [hl] at this
      cases bs with
      | nil => rfl
      | cons p t => simp [bufs] at this
    subst hbs
    have hp : m.owned.Perm (m.pool ++ []) := by simpa using c.perm
    obtain ⟨o, e, p⟩ := freeAll_ok m.pool hp
    have ho : o = [] := List.perm_nil.1 p
    subst ho
    refine ⟨{ m with pool := [], poolSize := 0, owned := [], deleted := true }, by simp [destroy, e], ?_, by simp⟩
    refine ⟨⟨c.live, List.Perm.refl _, List.Pairwise.nil, by simp, by simp, c.alloc, rfl,
      List.Pairwise.nil, by simp, c.lim, c.freed⟩, ?_, fun _ => rfl⟩
    have := c.freed
    simp [hl, ← this, h.1]
  · rename_i h
    refine ⟨m, rfl, ⟨c, ?_, by simp [ha]⟩, by simp [ha]⟩
    rw [ha, ← c.alloc_zero, ← c.freed]
    simpa using h

/-! ### Allocation -/

theorem ceil_facts (n : Nat) (h : n < SZ - 1 - 4095 - 64) :
    roundUp ((n + ALIGNMENT) % SZ) ALIGNMENT = ceilTo (n + 64) 64 ∧
    roundUp (ceilTo (n + 64) 64) 4096 = ceilTo (n + 64) 4096 ∧
    n + 64 ≤ ceilTo (n + 64) 64 ∧ ceilTo (n + 64) 64 ≤ ceilTo (n + 64) 4096 ∧
    ceilTo (n + 64) 4096 < n + 64 + 4096 := by
  have e0 : (n + ALIGNMENT) % SZ = n + 64 := by
    simp only [ALIGNMENT, SZ] at *
    omega
  have e1 : roundUp (n + 64) ALIGNMENT = ceilTo (n + 64) 64 :=
    roundUp_eq (by decide) (by simp only [ALIGNMENT, SZ] at *; omega)
  have e2 : roundUp (ceilTo (n + 64) 64) 4096 = ceilTo (ceilTo (n + 64) 64) 4096 :=
    roundUp_eq (by decide) (by simp only [SZ, ceilTo] at *; omega)
  have e3 : ceilTo (ceilTo (n + 64) 64) 4096 = ceilTo (n + 64) 4096 := by
    simp only [ceilTo]; omega
  refine ⟨by rw [e0, e1], by rw [e2, e3], ?_, ?_, ?_⟩ <;> simp only [ceilTo] <;> omega

theorem sysMalloc_some {o : List Block} {n : Nat} {ch : Option Nat} {b : Block}
    (h : sysMalloc o n ch = some b) :
    ch = some b.addr ∧ b.size = n ∧ 0 < b.addr ∧ b.addr % 64 = 0 ∧ ∀ c ∈ o, Disj b c := by
  unfold sysMalloc at h
  split at h
  · simp at h
  · split at h
    · rename_i a hh
      simp only [Option.some.injEq] at h
      subst h
      refine ⟨rfl, rfl, hh.1, hh.2.1, fun c hc => (disjoint_iff _ _).1 ?_⟩
      exact List.all_eq_true.1 hh.2.2 c hc
    · simp at h

theorem allocFromSystem_core (c : Core m v bs) {n r : Nat} {ch : Option Nat} {p : Nat}
    (hr : r + 64 ≤ n) (h : allocFromSystem m n ch = (m', some p)) :
    ∃ b, b.size = n ∧ b ∉ m.owned ∧ p = b.addr + 64 ∧ m'.deleted = m.deleted ∧
      m' = { m with owned := b :: m.owned, allocated := m.allocated + n } ∧
      Core m' { v with live := ⟨p, r⟩ :: v.live } ((b, r) :: bs) := by
  unfold allocFromSystem at h
  split at h
  · simp at h
  · rename_i b e
    obtain ⟨_, h2, h3, h4, h5⟩ := sysMalloc_some e
    simp only [Prod.mk.injEq, Option.some.injEq] at h
    obtain ⟨rfl, rfl⟩ := h
    refine ⟨b, h2, ?_, rfl, rfl, rfl, ?_⟩
    · intro hb
      rcases h5 b hb with hd | hd <;> omega
    · constructor
      · simp [bufs, c.live, ALIGNMENT]
      · exact List.Perm.cons b c.perm
      · exact List.pairwise_cons.2 ⟨h5, c.disj⟩
      · intro x hx
        rcases List.mem_cons.1 hx with rfl | hx
        · exact ⟨h4, h3, by omega⟩
        · exact c.ok x hx
      · intro x hx
        rcases List.mem_cons.1 hx with rfl | hx
        · show r + 64 ≤ b.size; omega
        · exact c.fit x hx
      · simp only [List.map_cons, total, c.alloc]; omega
      · exact c.pooled
      · exact c.sorted
      · exact c.big
      · exact c.lim
      · exact c.freed

theorem allocFromSystem_none {n : Nat} {ch : Option Nat}
    (h : allocFromSystem m n ch = (m', none)) : m' = m := by
  unfold allocFromSystem at h
  split at h
  · simp only [Prod.mk.injEq, and_true] at h; exact h.symm
  · simp at h

theorem allocFromPool_core (c : Core m v bs) {n r : Nat} {p : Nat}
    (hr : r + 64 ≤ n) (h : allocFromPool m n = some (m', p)) :
    ∃ b, b ∈ m.pool ∧ n ≤ b.size ∧ b.size - n ≤ n / 8 ∧ (∀ x ∈ m.pool, n ≤ x.size → b.size ≤ x.size) ∧
      p = b.addr + 64 ∧ m'.deleted = m.deleted ∧ m'.owned = m.owned ∧
      Core m' { v with live := ⟨p, r⟩ :: v.live } ((b, r) :: bs) := by
  unfold allocFromPool at h
  split at h
  · simp at h
  · rename_i l b q e
    obtain ⟨h1, h2, h3⟩ := lowerBound_some e
    split at h
    · rename_i hf
      simp only [isGoodFit, decide_eq_true_eq] at hf
      simp only [Option.some.injEq, Prod.mk.injEq] at h
      obtain ⟨rfl, rfl⟩ := h
      have hs := c.sorted
      rw [h1] at hs
      have hs' := List.pairwise_append.1 hs
      have hperm : m.pool.Perm (b :: (l ++ q)) := by rw [h1]; exact List.perm_middle
      have ht := total_perm hperm
      simp only [total] at ht
      refine ⟨b, by rw [h1]; simp, h2, by omega, ?_, rfl, rfl, rfl, ?_⟩
      · intro x hx hn
        rw [h1] at hx
        rcases List.mem_append.1 hx with hx | hx
        · have := h3 x hx; omega
        · rcases List.mem_cons.1 hx with rfl | hx
          · exact Nat.le_refl _
          · exact (List.pairwise_cons.1 hs'.2.1).1 x hx
      · constructor
        · simp [bufs, c.live, ALIGNMENT]
        · refine c.perm.trans ?_
          refine (List.Perm.append_left _ hperm).trans ?_
          exact List.perm_middle
        · exact c.disj
        · exact c.ok
        · intro x hx
          rcases List.mem_cons.1 hx with rfl | hx
          · show r + 64 ≤ b.size; omega
          · exact c.fit x hx
        · simp only [List.map_cons, total, c.alloc]; omega
        · show m.poolSize - b.size = _
          rw [c.pooled, ht]; simp
        · refine hs.sublist ?_
          exact List.Sublist.append (List.Sublist.refl _) (List.sublist_cons_self _ _)
        · intro x hx
          exact c.big x (by rw [h1]; rcases List.mem_append.1 hx with h | h <;> simp [h])
        · exact c.lim
        · exact c.freed
    · simp at h

theorem allocFromPool_none (c : Core m v bs) {n : Nat} (h : allocFromPool m n = none) :
    ∀ b ∈ m.pool, n ≤ b.size → ¬ b.size - n ≤ n / 8 := by
  unfold allocFromPool at h
  split at h
  · rename_i e
    intro b hb hn
    have := lowerBound_none e b hb
    omega
  · rename_i l b q e
    obtain ⟨h1, h2, h3⟩ := lowerBound_some e
    split at h
    · simp at h
    · rename_i hf
      simp only [isGoodFit, decide_eq_true_eq] at hf
      have hs := c.sorted
      rw [h1] at hs
      have hs' := List.pairwise_append.1 hs
      intro x hx hn
      rw [h1] at hx
      rcases List.mem_append.1 hx with hx | hx
      · have := h3 x hx; omega
      · rcases List.mem_cons.1 hx with rfl | hx
        · omega
        · have := (List.pairwise_cons.1 hs'.2.1).1 x hx; omega

/-- What an allocation does. -/
theorem allocate_core (c : Core m v bs) {n : Nat} {ch : Option Nat} {p : Nat}
    (hn : n < SZ - 1 - 4095 - 64) (h : allocate m n ch = (m', some p)) :
    ∃ b, p = b.addr + 64 ∧ n + 64 ≤ b.size ∧ m'.deleted = m.deleted ∧
      Core m' { v with live := ⟨p, n⟩ :: v.live } ((b, n) :: bs) ∧
      ((b ∈ m.pool ∧ m'.owned = m.owned ∧ ceilTo (n + 64) 4096 ≤ b.size ∧
          b.size - ceilTo (n + 64) 4096 ≤ ceilTo (n + 64) 4096 / 8 ∧
          ∀ x ∈ m.pool, ceilTo (n + 64) 4096 ≤ x.size → b.size ≤ x.size) ∨
        (b ∉ m.owned ∧ b.size ≤ ceilTo (n + 64) 4096 ∧
          (∀ x ∈ m.pool, ceilTo (n + 64) 4096 ≤ x.size → ¬ x.size - ceilTo (n + 64) 4096 ≤ ceilTo (n + 64) 4096 / 8 ∨ ceilTo (n + 64) 4096 ≤ m.thr))) := by
  obtain ⟨f1, f2, f3, f4, f5⟩ := ceil_facts n hn
  simp only [allocate, f1, f2] at h
  split at h
  · rename_i hs
    obtain ⟨b, b1, b2, b3, b4, b5, b6⟩ := allocFromSystem_core c f3 h
    exact ⟨b, b3, by omega, b4, b6, Or.inr ⟨b2, by omega, fun x _ _ => Or.inr hs⟩⟩
  · split at h
    · rename_i m1 p1 e
      simp only [Prod.mk.injEq, Option.some.injEq] at h
      obtain ⟨rfl, rfl⟩ := h
      obtain ⟨b, b1, b2, b3, b4, b5, b6, b7, b8⟩ :=
        allocFromPool_core c (r := n) (by omega) e
      exact ⟨b, b5, by omega, b6, b8, Or.inl ⟨b1, b7, b2, b3, b4⟩⟩
    · rename_i e
      obtain ⟨b, b1, b2, b3, b4, b5, b6⟩ := allocFromSystem_core c (r := n) (by omega) h
      exact ⟨b, b3, by omega, b4, b6, Or.inr ⟨b2, by omega,
        fun x hx hn => Or.inl (allocFromPool_none c e x hx hn)⟩⟩

theorem allocate_none {n : Nat} {ch : Option Nat} (h : allocate m n ch = (m', none)) : m' = m := by
  simp only [allocate] at h
  split at h
  · exact allocFromSystem_none h
  · split at h
    · simp at h
    · exact allocFromSystem_none h

/-! ### Release -/

/-- Taking one live block out of the invariant. -/
theorem Core.take (c : Core m v bs) {p : Nat} (h : ∃ u ∈ v.live, u.ptr = p) :
    ∃ b r bs', b ∈ m.owned ∧ p = b.addr + 64 ∧ (b, r) ∈ bs ∧ bs.Perm ((b, r) :: bs') ∧
      v.live.eraseP (fun u => u.ptr = p) = bufs bs' ∧ header m p = .ok b := by
  obtain ⟨u, hu, hp⟩ := h
  obtain ⟨u', l1, l2, _, hu', e1, e2⟩ :=
    List.exists_of_eraseP (p := fun u => decide (u.ptr = p)) hu (by simpa using hp)
  rw [c.live] at e1
  obtain ⟨b1, b2', rfl, hb1, hb2⟩ := List.map_eq_append_iff.1 e1
  obtain ⟨⟨b, r⟩, b2, rfl, hb3, hb4⟩ := List.map_eq_cons_iff.1 hb2
  have hptr : p = b.addr + 64 := by
    have : u'.ptr = p := by simpa using hu'
    rw [← this, ← hb3]
  have hmem : (b, r) ∈ b1 ++ (b, r) :: b2 := by simp
  have hown : b ∈ m.owned :=
    c.perm.mem_iff.2 (List.mem_append.2 (Or.inl (List.mem_map.2 ⟨(b, r), hmem, rfl⟩)))
  refine ⟨b, r, b1 ++ b2, hown, hptr, hmem, List.perm_middle, ?_, ?_⟩
  · rw [e2, ← hb1, ← hb4]; simp [bufs]
  · unfold header
    split
    · rename_i b' e
      have hb' := List.mem_of_find?_eq_some e
      have := List.find?_some e
      simp only [decide_eq_true_eq] at this
      have h64 : ALIGNMENT = 64 := rfl
      rw [c.distinct hb' hown (by omega)]
    · rename_i e
      have := List.find?_eq_none.1 e b hown
      simp [ALIGNMENT, hptr] at this

theorem release_core (c : Core m v bs) (ha : m.deleted = false) {p : Nat}
    (h : ∃ u ∈ v.live, u.ptr = p) (ch : List Nat) :
    ∃ b m' bs', header m p = .ok b ∧ release m b ch = .ok m' ∧ m'.deleted = false ∧
      Core m' { v with live := v.live.eraseP (fun u => u.ptr = p) } bs' ∧
      m'.allocated + b.size = m.allocated ∧ m'.thr = m.thr ∧
      (m.thr < b.size → Trimmed (deallocToPool m b) m') ∧ (b.size ≤ m.thr → m'.pool = m.pool) := by
  obtain ⟨b, r, bs', b1, b2, b3, b4, b5, b6⟩ := c.take h
  have hperm : m.owned.Perm (b :: (bs'.map Prod.fst ++ m.pool)) :=
    c.perm.trans (List.Perm.append_right _ (b4.map Prod.fst))
  have ht : total (bs.map Prod.fst) = b.size + total (bs'.map Prod.fst) :=
    total_perm (b4.map Prod.fst)
  have hfit : ∀ p ∈ bs', p.2 + 64 ≤ p.1.size :=
    fun x hx => c.fit x (b4.mem_iff.2 (List.mem_cons_of_mem _ hx))
  refine ⟨b, ?_⟩
  unfold release
  split
  · rename_i hbig
    have c1 : Core (deallocToPool m b) { v with live := v.live.eraseP (fun u => u.ptr = p) } bs' := by
      constructor
      · exact b5
      · refine hperm.trans (List.perm_middle.symm.trans ?_)
        exact List.Perm.append_left _ (emplace_perm b m.pool).symm
      · exact c.disj
      · exact c.ok
      · exact hfit
      · show m.allocated - b.size = _
        rw [c.alloc, ht]; omega
      · show m.poolSize + b.size = total (emplace b m.pool)
        rw [total_perm (emplace_perm b m.pool), c.pooled]; simp only [total]; omega
      · exact emplace_sorted b c.sorted
      · intro x hx
        rcases List.mem_cons.1 ((emplace_perm b m.pool).mem_iff.1 hx) with rfl | hx
        · exact hbig
        · exact c.big x hx
      · exact c.lim
      · exact c.freed
    obtain ⟨m', e, c2, s, t⟩ := gc_core ch c1
    refine ⟨m', bs', b6, e, by rw [s.2.2.2.1]; exact ha, c2, ?_, s.2.2.2.2, fun _ => t,
      fun h => absurd h (by omega)⟩
    rw [s.1]
    show m.allocated - b.size + b.size = _
    rw [c.alloc, ht]; omega
  · rename_i hsmall
    refine ⟨{ m with owned := m.owned.erase b, allocated := m.allocated - b.size }, bs', b6,
      by simp [deallocToSystem, sysFree_ok b1], ha, ?_, ?_, rfl, fun h => absurd h hsmall,
      fun _ => rfl⟩
    · constructor
      · exact b5
      · have := List.Perm.erase b hperm
        simpa using this
      · exact c.disj.sublist List.erase_sublist
      · exact fun x hx => c.ok x (List.mem_of_mem_erase hx)
      · exact hfit
      · show m.allocated - b.size = _
        rw [c.alloc, ht]; omega
      · exact c.pooled
      · exact c.sorted
      · exact c.big
      · exact c.lim
      · exact c.freed
    · show m.allocated - b.size + b.size = _
      rw [c.alloc, ht]; omega

/-! ### Every call -/

/-- Contract kept: every call is defined and keeps the invariant. -/
theorem step_inv (i : InvB m v bs) {op : Op} (hl : v.Legal op) :
    ∃ m' a bs', step m op = .ok (m', a) ∧ InvB m' (v.next op a) bs' := by
  have halive : m.deleted = false := by
    cases hd : m.deleted with
    | false => rfl
    | true =>
      have := i.del.1 hd
      cases op with
      | allocate => have h2 := hl.2; rw [this.1] at h2; simp at h2
      | deallocate => rw [View.Legal, this.2] at hl; simp at hl
      | setLimit => rw [View.Legal, this.1] at hl; simp at hl
      | coreFreed => rw [View.Legal, this.1] at hl; simp at hl
  have c := i.toCore
  unfold step
  rw [if_neg (by simp [halive])]
  cases op with
  | allocate n ch =>
    rcases e : allocate m n ch with ⟨m', a⟩
    cases a with
    | none =>
      have := allocate_none e
      subst this
      exact ⟨m', none, bs, by simp only [e], i⟩
    | some p =>
      have hl1 : n < SZ - 1 - 4095 - 64 := hl.1
      obtain ⟨b, b1, b2, b3, b4, _⟩ := allocate_core c hl1 e
      clear hl hl1
      refine ⟨m', some p, _, by simp only [e], ⟨b4, ?_, ?_⟩⟩
      · simp [b3, halive, View.next]
      · simp [b3, halive]
  | deallocate p ch =>
    obtain ⟨b, m1, bs', e0, e1, h2, h3, _⟩ := release_core c halive hl ch
    obtain ⟨m2, e2, i2, _⟩ := maybeDestroy_inv h3 h2
    exact ⟨m2, none, bs', by simp [deallocate, e0, e1, e2], i2⟩
  | setLimit n ch =>
    have c1 : Core { m with limit := n } { v with limit := n } bs :=
      ⟨c.live, c.perm, c.disj, c.ok, c.fit, c.alloc, c.pooled, c.sorted, c.big, rfl, c.freed⟩
    obtain ⟨m', e, c2, s, t⟩ := gc_core ch c1
    refine ⟨m', none, bs, by simp [setLimit, e], ⟨c2, ?_, ?_⟩⟩
    · have := s.2.2.2.1
      simp only [View.next]
      rw [this]
      exact i.del
    · intro h
      have := s.2.2.2.1
      rw [this, halive] at h
      simp at h
  | coreFreed =>
    have c1 : Core { m with coreFreed := true } { v with freed := true } bs :=
      ⟨c.live, c.perm, c.disj, c.ok, c.fit, c.alloc, c.pooled, c.sorted, c.big, c.lim, rfl⟩
    obtain ⟨m2, e2, i2, _⟩ := maybeDestroy_inv c1 halive
    exact ⟨m2, none, bs, by simp [onCoreFreed, e2], i2⟩

theorem reach_inv {thr limit : Nat} (h : Reach thr limit m v) : ∃ bs, InvB m v bs := by
  induction h with
  | new =>
    refine ⟨[], ⟨⟨rfl, List.Perm.refl _, List.Pairwise.nil, ?_, ?_, rfl, rfl, List.Pairwise.nil, ?_,
      rfl, rfl⟩, ?_, ?_⟩⟩ <;> simp [Mem.new]
  | call _ hl hs ih =>
    obtain ⟨bs, i⟩ := ih
    obtain ⟨m2, a2, bs', e, i'⟩ := step_inv i hl
    rw [e] at hs
    simp only [Res.ok.injEq, Prod.mk.injEq] at hs
    obtain ⟨rfl, rfl⟩ := hs
    exact ⟨bs', i'⟩

end VS.Memory
