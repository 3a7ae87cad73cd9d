import Verif.Memory.RaceSpec
import Verif.Memory.Lemmas

/-! The invariant of the concurrent allocator. -/

namespace VS.Memory.Race
open VS VS.Memory

/-- What a thread still has to subtract from the counter. -/
def owes : Pc → Nat
  | .freeBig b => b.size
  | .freeSmall b => b.size
  | .freeCount n => n
  | _ => 0

/-- Sum over threads. -/
def owesAll : List Pc → Nat
  | [] => 0
  | p :: t => owes p + owesAll t

/-- Facts about single program points. -/
def pcOk (thr : Nat) : Pc → Prop
  | .wantSys n s => n + 64 ≤ s
  | .got n b => n + 64 ≤ b.size
  | .freeBig b => thr < b.size
  | .chkAlloc => False
  | _ => True

theorem set_facts {l : List Pc} {i : Nat} {old : Pc} (h : l[i]? = some old) :
    ∃ (rest : List Block) (k : Nat), (l.flatMap transit).Perm (transit old ++ rest) ∧
      (∀ new, ((l.set i new).flatMap transit).Perm (transit new ++ rest)) ∧
      owesAll l = owes old + k ∧ ∀ new, owesAll (l.set i new) = owes new + k := by
  induction l generalizing i with
  | nil => simp at h
  | cons p t ih =>
    cases i with
    | zero =>
      simp only [List.getElem?_cons_zero, Option.some.injEq] at h
      subst h
      exact ⟨t.flatMap transit, owesAll t, by simp, fun new => by simp, rfl, fun new => rfl⟩
    | succ i =>
      simp only [List.getElem?_cons_succ] at h
      obtain ⟨rest, k, h1, h2, h3, h4⟩ := ih h
      refine ⟨transit p ++ rest, owes p + k, ?_, ?_, ?_, ?_⟩
      · simp only [List.flatMap_cons]
        refine (List.Perm.append_left _ h1).trans ?_
        rw [← List.append_assoc, ← List.append_assoc]
        exact List.Perm.append_right _ List.perm_append_comm
      · intro new
        simp only [List.set_cons_succ, List.flatMap_cons]
        refine (List.Perm.append_left _ (h2 new)).trans ?_
        rw [← List.append_assoc, ← List.append_assoc]
        exact List.Perm.append_right _ List.perm_append_comm
      · simp only [owesAll, h3]; omega
      · intro new; simp only [List.set_cons_succ, owesAll, h4 new]; omega

/-- The invariant. -/
structure CInv (c : CMem) : Prop where
  perm : c.mem.owned.Perm (c.live.map Prod.fst ++ c.mem.pool ++ c.pcs.flatMap transit)
  disj : c.mem.owned.Pairwise Disj
  ok : ∀ b ∈ c.mem.owned, b.addr % 64 = 0 ∧ 0 < b.addr ∧ 64 ≤ b.size
  fit : ∀ p ∈ c.live, p.2 + 64 ≤ p.1.size
  alloc : c.mem.allocated = total (c.live.map Prod.fst) + owesAll c.pcs
  pooled : c.mem.poolSize = total c.mem.pool
  sorted : Sorted c.mem.pool
  big : ∀ b ∈ c.mem.pool, c.mem.thr < b.size
  pcs : ∀ p ∈ c.pcs, pcOk c.mem.thr p
  core : c.mem.coreFreed = false
  alive : c.mem.deleted = false

theorem CInv.pcs_set {c : CMem} (i : CInv c) (k : Nat) (pc : Pc) (h : pcOk c.mem.thr pc) :
    ∀ p ∈ c.pcs.set k pc, pcOk c.mem.thr p := by
  intro p hp
  rcases List.mem_or_eq_of_mem_set hp with hp | rfl
  · exact i.pcs p hp
  · exact h

theorem CInv.distinct {c : CMem} (i : CInv c) {a b : Block} (ha : a ∈ c.mem.owned)
    (hb : b ∈ c.mem.owned) (h : a.addr = b.addr) : a = b := by
  have h1 := i.ok a ha
  have h2 := i.ok b hb
  by_cases hab : a = b
  · exact hab
  · rcases disj_of_pairwise i.disj ha hb hab with hd | hd <;> omega

theorem CInv.nodup {c : CMem} (i : CInv c) : c.mem.owned.Nodup := by
  refine List.Pairwise.imp_of_mem ?_ i.disj
  intro a b ha hb hd hab
  subst hab
  have := i.ok a ha
  rcases hd with hd | hd <;> omega

/-- Only a program point moves, with the same block and debt. -/
theorem CInv.move {c : CMem} (h : CInv c) {i : Nat} {old new : Pc} (e : c.pcs[i]? = some old)
    (h1 : transit new = transit old) (h2 : owes new = owes old) (h3 : pcOk c.mem.thr new) :
    CInv (c.goto i new) := by
  obtain ⟨rest, k, f1, f2, f3, f4⟩ := set_facts e
  refine ⟨?_, h.disj, h.ok, h.fit, ?_, h.pooled, h.sorted, h.big, h.pcs_set i new h3, h.core,
    h.alive⟩
  · refine h.perm.trans (List.Perm.append_left _ ?_)
    exact f1.trans (by rw [← h1]; exact (f2 new).symm)
  · show c.mem.allocated = _ + owesAll (c.pcs.set i new)
    rw [f4 new, h2, ← f3, h.alloc]; rfl

theorem cstep_inv {c : CMem} (h : CInv c) {i : Nat} {a : Act} (hl : Legal c a) :
    ∃ c', cstep c i a = .ok c' ∧ CInv c' ∧ c'.mem.thr = c.mem.thr := by
  have hal := h.alive
  unfold cstep
  split
  · exact ⟨c, rfl, h, rfl⟩
  · -- begin
    rename_i r e
    rw [if_neg (by simp [hal])]
    obtain ⟨rest, k, f1, f2, f3, f4⟩ := set_facts e
    simp only [transit, owes, List.nil_append] at f1 f3
    cases r with
    | allocate n =>
      have hn : n < SZ - 1 - 4095 - 64 := hl
      obtain ⟨g1, g2, g3, g4, g5⟩ := ceil_facts n hn
      clear hl
      simp only [begin, g1, g2]
      split
      · exact ⟨_, rfl, h.move e rfl rfl g3, rfl⟩
      · split
        · rename_i p b q el
          obtain ⟨h1, h2, h3⟩ := lowerBound_some el
          split
          · refine ⟨_, rfl, ?_, rfl⟩
            have hs := h.sorted
            rw [h1] at hs
            have hperm : c.mem.pool.Perm (b :: (p ++ q)) := by rw [h1]; exact List.perm_middle
            have ht := total_perm hperm
            simp only [total] at ht
            constructor
            · refine h.perm.trans ?_
              simp only [List.map_cons, List.cons_append]
              rw [List.append_assoc, List.append_assoc]
              refine (List.Perm.append_left _ (List.Perm.append_right _ hperm)).trans ?_
              exact List.perm_middle
            · exact h.disj
            · exact h.ok
            · intro x hx
              rcases List.mem_cons.1 hx with rfl | hx
              · show n + 64 ≤ b.size; omega
              · exact h.fit x hx
            · simp only [List.map_cons, total, h.alloc]; omega
            · show c.mem.poolSize - b.size = _
              rw [h.pooled, ht]; simp
            · exact hs.sublist (List.Sublist.append (List.Sublist.refl _) (List.sublist_cons_self _ _))
            · intro x hx
              exact h.big x (by rw [h1]; rcases List.mem_append.1 hx with h | h <;> simp [h])
            · exact h.pcs
            · exact h.core
            · exact h.alive
          · exact ⟨_, rfl, h.move e rfl rfl (by show n + 64 ≤ _; omega), rfl⟩
        · exact ⟨_, rfl, h.move e rfl rfl (by show n + 64 ≤ _; omega), rfl⟩
    | deallocate p =>
      obtain ⟨u, hu, hp⟩ := hl
      obtain ⟨⟨b, r⟩, l1, l2, _, hu', e1, e2⟩ :=
        List.exists_of_eraseP (p := fun u : Block × Nat => decide (u.1.addr + ALIGNMENT = p)) hu
          (decide_eq_true hp)
      simp only [decide_eq_true_eq] at hu'
      have hown : b ∈ c.mem.owned := h.perm.mem_iff.2 (by simp [e1])
      have hh : header c.mem p = .ok b := by
        unfold header
        split
        · rename_i b' eb
          have hb' := List.mem_of_find?_eq_some eb
          have := List.find?_some eb
          simp only [decide_eq_true_eq] at this
          rw [h.distinct hb' hown (by omega)]
        · rename_i eb
          have := List.find?_eq_none.1 eb b hown
          simp [hu'] at this
      have ht : total (c.live.map Prod.fst) = b.size + total ((l1 ++ l2).map Prod.fst) := by
        rw [e1]; simp only [List.map_append, List.map_cons, total_append, total]; omega
      simp only [begin, hh]
      refine ⟨_, rfl, ?_, rfl⟩
      generalize hpc : (if b.size > c.mem.thr then Pc.freeBig b else Pc.freeSmall b) = pc
      have h1 : transit pc = [b] := by rw [← hpc]; split <;> rfl
      have h2 : owes pc = b.size := by rw [← hpc]; split <;> rfl
      have h3 : pcOk c.mem.thr pc := by rw [← hpc]; split <;> simp_all [pcOk]
      constructor
      · refine h.perm.trans ?_
        simp only [CMem.goto, e2]
        rw [e1]
        simp only [List.map_append, List.map_cons, List.append_assoc, List.cons_append]
        refine List.perm_middle.trans ?_
        refine List.Perm.trans ?_ (List.Perm.append_left _ (List.Perm.append_left _
          (List.Perm.append_left _ (f2 pc).symm)))
        rw [h1]
        refine List.Perm.trans ?_ (List.Perm.append_left _ (List.Perm.append_left _
          List.perm_middle.symm))
        refine List.Perm.trans ?_ (List.Perm.append_left _ List.perm_middle.symm)
        refine List.Perm.trans ?_ List.perm_middle.symm
        exact List.Perm.cons _ (List.Perm.append_left _ (List.Perm.append_left _
          (List.Perm.append_left _ f1)))
      · exact h.disj
      · exact h.ok
      · intro x hx
        refine h.fit x ?_
        simp only [CMem.goto, e2] at hx
        rw [e1]
        rcases List.mem_append.1 hx with hx | hx <;> simp [hx]
      · simp only [CMem.goto, e2, f4, h2]
        rw [h.alloc, ht, f3]; omega
      · exact h.pooled
      · exact h.sorted
      · exact h.big
      · exact h.pcs_set i pc h3
      · exact h.core
      · exact h.alive
    | setLimit n =>
      refine ⟨_, rfl, ?_, rfl⟩
      have h' : CInv { c with mem := { c.mem with limit := n } } :=
        ⟨h.perm, h.disj, h.ok, h.fit, h.alloc, h.pooled, h.sorted, h.big, h.pcs, h.core, h.alive⟩
      exact h'.move e rfl rfl trivial
    | coreFreed => exact absurd hl (by simp [Legal])
  · exact ⟨c, rfl, h, rfl⟩
  · exact ⟨c, rfl, h, rfl⟩
  · rename_i pc ch hne e
    rw [if_neg (by simp [hal])]
    obtain ⟨rest, k, f1, f2, f3, f4⟩ := set_facts e
    have hpc := h.pcs pc (List.mem_of_getElem? e)
    cases pc with
    | idle => exact ⟨c, rfl, h, rfl⟩
    | wantSys n s =>
      simp only [resume]
      split
      · exact ⟨_, rfl, h.move e rfl rfl trivial, rfl⟩
      · rename_i b eb
        obtain ⟨_, h2, h3, h4, h5⟩ := sysMalloc_some eb
        have hn : n + 64 ≤ s := hpc
        refine ⟨_, rfl, ?_, rfl⟩
        simp only [transit, owes, List.nil_append] at f1 f3
        constructor
        · show (b :: c.mem.owned).Perm (_ ++ (c.pcs.set i (.got n b)).flatMap transit)
          refine List.Perm.trans ?_ (List.Perm.append_left _ (f2 (.got n b)).symm)
          simp only [transit, List.singleton_append]
          refine List.Perm.trans ?_ List.perm_middle.symm
          exact List.Perm.cons b (h.perm.trans (List.Perm.append_left _ f1))
        · exact List.pairwise_cons.2 ⟨h5, h.disj⟩
        · intro x hx
          rcases List.mem_cons.1 hx with rfl | hx
          · exact ⟨h4, h3, by omega⟩
          · exact h.ok x hx
        · exact h.fit
        · simp only [CMem.goto, f4, owes]
          rw [h.alloc, f3]
        · exact h.pooled
        · exact h.sorted
        · exact h.big
        · exact h.pcs_set i _ (by show n + 64 ≤ b.size; omega)
        · exact h.core
        · exact h.alive
    | got n b =>
      refine ⟨_, rfl, ?_, rfl⟩
      simp only [transit, owes, List.singleton_append] at f1 f3
      constructor
      · refine h.perm.trans ?_
        show List.Perm _ (b :: (c.live.map Prod.fst ++ c.mem.pool ++
          (c.pcs.set i .idle).flatMap transit))
        refine (List.Perm.append_left _ f1).trans (List.perm_middle.trans ?_)
        exact List.Perm.cons _ (List.Perm.append_left _ (f2 .idle).symm)
      · exact h.disj
      · exact h.ok
      · intro x hx
        rcases List.mem_cons.1 hx with rfl | hx
        · exact hpc
        · exact h.fit x hx
      · simp only [CMem.goto, f4, owes, List.map_cons, total]
        rw [h.alloc, f3]; omega
      · exact h.pooled
      · exact h.sorted
      · exact h.big
      · exact h.pcs_set i _ trivial
      · exact h.core
      · exact h.alive
    | freeBig b =>
      refine ⟨_, rfl, ?_, rfl⟩
      simp only [transit, owes, List.singleton_append] at f1 f3
      constructor
      · refine h.perm.trans ?_
        show List.Perm _ (c.live.map Prod.fst ++ emplace b c.mem.pool ++
          (c.pcs.set i (.gcA true)).flatMap transit)
        refine (List.Perm.append_left _ f1).trans (List.perm_middle.trans ?_)
        refine List.Perm.trans ?_ (List.Perm.append
          (List.Perm.append_left _ (emplace_perm b c.mem.pool).symm) (f2 (.gcA true)).symm)
        simp only [List.append_assoc, List.cons_append, transit, List.nil_append]
        exact List.perm_middle.symm
      · exact h.disj
      · exact h.ok
      · exact h.fit
      · show c.mem.allocated - b.size = total _ + owesAll (c.pcs.set i (.gcA true))
        rw [f4, h.alloc, f3]
        simp only [owes, CMem.goto]; omega
      · show c.mem.poolSize + b.size = total (emplace b c.mem.pool)
        rw [total_perm (emplace_perm b c.mem.pool), h.pooled]; simp only [total]; omega
      · exact emplace_sorted b h.sorted
      · intro x hx
        rcases List.mem_cons.1 ((emplace_perm b c.mem.pool).mem_iff.1 hx) with rfl | hx
        · exact hpc
        · exact h.big x hx
      · exact h.pcs_set i _ trivial
      · exact h.core
      · exact h.alive
    | freeSmall b =>
      simp only [transit, owes, List.singleton_append] at f1 f3
      have hperm : c.mem.owned.Perm (b :: (c.live.map Prod.fst ++ c.mem.pool ++ rest)) :=
        h.perm.trans ((List.Perm.append_left _ f1).trans List.perm_middle)
      have hb : b ∈ c.mem.owned := hperm.mem_iff.2 (by simp)
      simp only [resume, sysFree_ok hb]
      refine ⟨_, rfl, ?_, rfl⟩
      constructor
      · show (c.mem.owned.erase b).Perm (_ ++ (c.pcs.set i (.freeCount b.size)).flatMap transit)
        have := List.Perm.erase b hperm
        rw [List.erase_cons_head] at this
        exact this.trans (List.Perm.append_left _ (f2 (.freeCount b.size)).symm)
      · exact h.disj.sublist List.erase_sublist
      · exact fun x hx => h.ok x (List.mem_of_mem_erase hx)
      · exact h.fit
      · simp only [CMem.goto, f4, owes]
        rw [h.alloc, f3]
      · exact h.pooled
      · exact h.sorted
      · exact h.big
      · exact h.pcs_set i _ trivial
      · exact h.core
      · exact h.alive
    | freeCount n =>
      refine ⟨_, rfl, ?_, rfl⟩
      simp only [transit, owes, List.nil_append] at f1 f3
      constructor
      · refine h.perm.trans (List.Perm.append_left _ (f1.trans ?_))
        exact (f2 .chkFreed).symm
      · exact h.disj
      · exact h.ok
      · exact h.fit
      · show c.mem.allocated - n = total _ + owesAll (c.pcs.set i .chkFreed)
        rw [f4, h.alloc, f3]
        simp only [owes, CMem.goto]; omega
      · exact h.pooled
      · exact h.sorted
      · exact h.big
      · exact h.pcs_set i _ trivial
      · exact h.core
      · exact h.alive
    | gcA f => exact ⟨_, rfl, h.move e rfl rfl trivial, rfl⟩
    | gcB f a => exact ⟨_, rfl, h.move e rfl rfl trivial, rfl⟩
    | gcC f t => exact ⟨_, rfl, h.move e rfl rfl trivial, rfl⟩
    | gcLoop f t l =>
      have hafter : transit (after f) = [] ∧ owes (after f) = 0 ∧ pcOk c.mem.thr (after f) := by
        unfold after; split <;> exact ⟨rfl, rfl, trivial⟩
      have hmv : CInv (c.goto i (after f)) := h.move e hafter.1 hafter.2.1 hafter.2.2
      simp only [resume]
      split
      · split
        · exact ⟨_, rfl, hmv, rfl⟩
        · split
          · exact ⟨_, rfl, hmv, rfl⟩
          · rename_i hne' _
            have hlen : 0 < c.mem.pool.length := List.length_pos_iff.2 hne'
            have hk := Nat.mod_lt ch hlen
            generalize ch % c.mem.pool.length = j at hk
            have hb : c.mem.pool[j]? = some c.mem.pool[j] := List.getElem?_eq_getElem hk
            generalize c.mem.pool[j] = b at hb
            have hp := eraseIdx_perm hb
            have ht := total_perm hp
            simp only [total] at ht
            simp only [hb]
            refine ⟨_, rfl, ?_, rfl⟩
            simp only [transit, owes, List.nil_append] at f1 f3
            constructor
            · refine h.perm.trans ?_
              show List.Perm _ (c.live.map Prod.fst ++ c.mem.pool.eraseIdx j ++
                (c.pcs.set i _).flatMap transit)
              refine (List.Perm.append (List.Perm.append_left _ hp) f1).trans ?_
              refine List.Perm.trans ?_ (List.Perm.append_left _ (f2 _).symm)
              simp only [transit, List.append_assoc, List.cons_append, List.nil_append]
              refine List.Perm.append_left _ ?_
              exact List.perm_middle.symm
            · exact h.disj
            · exact h.ok
            · exact h.fit
            · simp only [CMem.goto, f4, owes]
              rw [h.alloc, f3]
            · show c.mem.poolSize - b.size = _
              rw [h.pooled, ht]; simp [CMem.goto]
            · exact h.sorted.sublist (List.eraseIdx_sublist _ _)
            · exact fun x hx => h.big x (List.mem_of_mem_eraseIdx hx)
            · exact h.pcs_set i _ trivial
            · exact h.core
            · exact h.alive
      · exact ⟨_, rfl, hmv, rfl⟩
    | gcFree f b t l =>
      simp only [transit, owes, List.singleton_append] at f1 f3
      have hperm : c.mem.owned.Perm (b :: (c.live.map Prod.fst ++ c.mem.pool ++ rest)) :=
        h.perm.trans ((List.Perm.append_left _ f1).trans List.perm_middle)
      have hb : b ∈ c.mem.owned := hperm.mem_iff.2 (by simp)
      simp only [resume, sysFree_ok hb]
      refine ⟨_, rfl, ?_, rfl⟩
      constructor
      · show (c.mem.owned.erase b).Perm (_ ++ (c.pcs.set i (.gcLoop f (t - b.size) l)).flatMap transit)
        have := List.Perm.erase b hperm
        rw [List.erase_cons_head] at this
        exact this.trans (List.Perm.append_left _ (f2 (.gcLoop f (t - b.size) l)).symm)
      · exact h.disj.sublist List.erase_sublist
      · exact fun x hx => h.ok x (List.mem_of_mem_erase hx)
      · exact h.fit
      · simp only [CMem.goto, f4, owes]
        rw [h.alloc, f3]
      · exact h.pooled
      · exact h.sorted
      · exact h.big
      · exact h.pcs_set i _ trivial
      · exact h.core
      · exact h.alive
    | chkFreed =>
      simp only [resume, h.core]
      exact ⟨_, rfl, h.move e rfl rfl trivial, rfl⟩
    | chkAlloc => exact absurd hpc (by simp [pcOk])

theorem replicate_facts (n : Nat) :
    (List.replicate n Pc.idle).flatMap transit = [] ∧ owesAll (List.replicate n Pc.idle) = 0 := by
  induction n with
  | zero => exact ⟨rfl, rfl⟩
  | succ n ih => simp [List.replicate_succ, owesAll, owes, transit, ih]

theorem creach_inv {thr limit n : Nat} {c : CMem} (h : CReach thr limit n c) :
    CInv c ∧ c.mem.thr = thr := by
  induction h with
  | new =>
    obtain ⟨r1, r2⟩ := replicate_facts n
    refine ⟨⟨?_, List.Pairwise.nil, ?_, ?_, ?_, rfl, List.Pairwise.nil, ?_, ?_, rfl, rfl⟩, rfl⟩
    · simp only [CMem.new, r1]; exact List.Perm.refl _
    · simp [CMem.new, Mem.new]
    · simp [CMem.new]
    · simp only [CMem.new, r2]; rfl
    · simp [CMem.new, Mem.new]
    · intro p hp
      rw [List.eq_of_mem_replicate hp]
      trivial
  | step _ hl hs ih =>
    obtain ⟨c2, e, i2, t2⟩ := cstep_inv ih.1 hl
    rw [e] at hs
    simp only [Res.ok.injEq] at hs
    subst hs
    exact ⟨i2, t2.trans ih.2⟩

end VS.Memory.Race
