import Verif.Memory.RaceLemmas

/-!
# C07, C08, C09 with concurrent callers
-/

namespace VS.Memory.Race
open VS VS.Memory

/-- **C07** (any number of threads, any schedule).  The buffers handed out are pairwise apart, each
lies with its header inside a block that the allocator owns and that is neither pooled nor in the
hands of another thread. -/
theorem C07_concurrent {thr limit n : Nat} {c : CMem} (h : CReach thr limit n c) :
    c.live.Pairwise (fun a b => apart (a.1.addr + 64) a.2 (b.1.addr + 64) b.2) ∧
    ∀ u ∈ c.live, u.1.addr % 64 = 0 ∧ u.2 + 64 ≤ u.1.size ∧ u.1 ∈ c.mem.owned ∧
      u.1 ∉ c.mem.pool ∧ ∀ pc ∈ c.pcs, u.1 ∉ transit pc := by
  have i := (creach_inv h).1
  have hnd := i.perm.nodup_iff.1 i.nodup
  rw [List.append_assoc] at hnd
  have hnd' := List.nodup_append.1 hnd
  have hmem : ∀ u ∈ c.live, u.1 ∈ c.mem.owned := by
    intro u hu
    refine i.perm.mem_iff.2 ?_
    rw [List.append_assoc]
    exact List.mem_append.2 (Or.inl (List.mem_map.2 ⟨u, hu, rfl⟩))
  constructor
  · have h1 : c.live.Pairwise (fun a b => a.1 ≠ b.1) := List.pairwise_map.1 hnd'.1
    refine List.Pairwise.imp_of_mem ?_ h1
    intro a b ha hb hne x hx
    have := i.fit a ha
    have := i.fit b hb
    rcases disj_of_pairwise i.disj (hmem a ha) (hmem b hb) hne with hd | hd <;> omega
  · intro u hu
    have hm : u.1 ∈ c.live.map Prod.fst := List.mem_map.2 ⟨u, hu, rfl⟩
    refine ⟨(i.ok _ (hmem u hu)).1, i.fit u hu, hmem u hu, ?_, ?_⟩
    · intro hp
      exact hnd'.2.2 u.1 hm u.1 (List.mem_append.2 (Or.inl hp)) rfl
    · intro pc hpc ht
      exact hnd'.2.2 u.1 hm u.1
        (List.mem_append.2 (Or.inr (List.mem_flatMap.2 ⟨pc, hpc, ht⟩))) rfl

/-- **C09** (any schedule, while the core exists).  No step frees a block twice, reads a missing
header or touches a deleted allocator, and the allocator is not deleted. -/
theorem C09_concurrent_no_ub {thr limit n : Nat} {c : CMem} {i : Nat} {a : Act}
    (h : CReach thr limit n c) (hl : Legal c a) :
    ∃ c', cstep c i a = .ok c' ∧ c'.mem.deleted = false := by
  obtain ⟨c', e, i', _⟩ := cstep_inv (creach_inv h).1 hl (i := i)
  exact ⟨c', e, i'.alive⟩

/-- **C08** (counters under any schedule).  The live counter never misses a buffer that is handed
out; whenever no call is in progress it is exact, so is the pooled counter, and every block not
given back is behind a buffer or in the pool. -/
theorem C08_concurrent_counters {thr limit n : Nat} {c : CMem} (h : CReach thr limit n c) :
    total (c.live.map Prod.fst) ≤ c.mem.allocated ∧ c.mem.poolSize = total c.mem.pool ∧
    ((∀ pc ∈ c.pcs, pc = .idle) →
      c.mem.allocated = total (c.live.map Prod.fst) ∧
      c.mem.owned.Perm (c.live.map Prod.fst ++ c.mem.pool)) := by
  have i := (creach_inv h).1
  refine ⟨by rw [i.alloc]; omega, i.pooled, fun hidle => ?_⟩
  have hrep : c.pcs = List.replicate c.pcs.length .idle := List.eq_replicate_of_mem hidle
  obtain ⟨r1, r2⟩ := replicate_facts c.pcs.length
  rw [← hrep] at r1 r2
  constructor
  · rw [i.alloc, r2]; rfl
  · have := i.perm
    rw [r1, List.append_nil] at this
    exact this

/-- **C09**, why buffers that outlive the core must be returned one at a time
(include/VapourSynth4.h:492): two threads returning the last two buffers at the same time can both
see the counter at zero, and the second one deletes the allocator again. -/
theorem C09_concurrent_release_refuted :
    crun (CMem.new POOL_THRESHOLD 1000 3)
      [(0, .begin (.allocate 100)), (0, .go 64), (0, .go 0),
       (0, .begin (.allocate 100)), (0, .go 1024), (0, .go 0),
       (2, .begin .coreFreed), (2, .go 0),
       (0, .begin (.deallocate 128)), (1, .begin (.deallocate 1088)),
       (0, .go 0), (1, .go 0), (0, .go 0), (1, .go 0),
       (0, .go 0), (1, .go 0), (0, .go 0), (1, .go 0)] = .ub := by
  decide +kernel

/-- The same calls one after the other are fine and delete the allocator once. -/
example :
    (match crun (CMem.new POOL_THRESHOLD 1000 3)
      [(0, .begin (.allocate 100)), (0, .go 64), (0, .go 0),
       (0, .begin (.allocate 100)), (0, .go 1024), (0, .go 0),
       (2, .begin .coreFreed), (2, .go 0),
       (0, .begin (.deallocate 128)), (0, .go 0), (0, .go 0), (0, .go 0), (0, .go 0),
       (1, .begin (.deallocate 1088)), (1, .go 0), (1, .go 0), (1, .go 0), (1, .go 0)] with
     | .ok c => c.mem.deleted && c.mem.owned.isEmpty
     | _ => false) = true := by decide +kernel

/-- A schedule under which two threads really interleave: one returns a large buffer while the
other takes it from the pool before the first one gets to trimming. -/
example :
    (match crun (CMem.new POOL_THRESHOLD 1000 2)
      [(0, .begin (.allocate 2000000)), (0, .go 64), (0, .go 0),
       (0, .begin (.deallocate 128)), (0, .go 0),
       (1, .begin (.allocate 2000000)),
       (0, .go 0), (0, .go 0), (0, .go 0), (0, .go 0), (0, .go 0)] with
     | .ok c => decide ((c.live, c.mem.pool, c.pcs) =
         ([(⟨64, 2002944⟩, 2000000)], [], [.idle, .idle]))
     | _ => false) = true := by decide +kernel

end VS.Memory.Race
