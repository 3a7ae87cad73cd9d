import Verif.Life.Spec
import Verif.Life.Step

/-!
# Every history is lawful
-/

namespace VS.Life

theorem lawful_snoc {tr : List Event} {e : Event} (h : Lawful tr) (ha : Allowed tr e) : Lawful (tr ++ [e]) := by
  intro past e' rest he
  rcases List.eq_nil_or_concat rest with rfl | ⟨rest', x, rfl⟩
  · obtain ⟨h1, h2⟩ := List.append_inj' he rfl
    injection h2 with h2 _
    subst h1 h2
    exact ha
  · have : past ++ e' :: rest'.concat x = (past ++ e' :: rest') ++ [x] := by simp
    rw [this] at he
    exact h past e' rest' (List.append_inj' he rfl).1

section
variable {h : Heap} {R A Q B : Nat → Nat}

theorem HInv.freed_once (hi : HInv h R A Q B) (c : Nat) : h.trace.count (.freed c) ≤ 1 := by
  rw [hi.freed c]
  by_cases hc : c < h.next
  · have := hi.place c hc
    split <;> omega
  · obtain ⟨h1, _, _, h4⟩ := hi.fresh c (by omega)
    rw [h1]
    exact Nat.zero_le _

/-- A filter whose free function was called. -/
theorem HInv.freed_place (hi : HInv h R A Q B) {c : Nat} (hm : .freed c ∈ h.trace) :
    c < h.next ∧ (h.node c).rc = 0 ∧ A c = 0 ∧ Q c = 0 := by
  have h1 := List.count_pos_iff.2 hm
  rw [hi.freed c] at h1
  split at h1
  · have hc : c < h.next := by
      refine Nat.lt_of_not_le (fun hn => ?_)
      obtain ⟨g1, _, _, g4⟩ := hi.fresh c hn
      rw [g1, g4] at h1
      exact absurd h1 (Nat.lt_irrefl 0)
    have h2 := hi.place c hc
    refine ⟨hc, ?_, by omega, by omega⟩
    have h3 : (h.node c).alive = 0 := by omega
    unfold Node.alive at h3
    split at h3
    · assumption
    · cases h3
  · exact absurd h1 (Nat.lt_irrefl 0)

theorem held_pos {n d : Nat} (hn : n < h.next) (hd : d ∈ (h.node n).deps ∨ d ∈ (h.node n).data) : 0 < h.held d := by
  unfold Heap.held
  generalize h.next = k at hn
  induction k with
  | zero => omega
  | succ k ih =>
    show 0 < sumTo _ k + ((h.node k).deps.count d + (h.node k).data.count d)
    by_cases e : n = k
    · subst e
      rcases hd with hd | hd
      · have := List.count_pos_iff.2 hd; omega
      · have := List.count_pos_iff.2 hd; omega
    · have := ih (by omega); omega

theorem HInv.holder_lt (hi : HInv h R A Q B) {n d : Nat} (hd : d ∈ (h.node n).deps ∨ d ∈ (h.node n).data) :
    n < h.next := by
  refine Nat.lt_of_not_le (fun hn => ?_)
  obtain ⟨g1, _⟩ := hi.fresh n hn
  rw [g1] at hd
  rcases hd with hd | hd <;> cases hd

theorem HInv.unheld (hi : HInv h R A Q B) {c : Nat} (hrc : (h.node c).rc = 0) :
    h.ext c = 0 ∧ R c = 0 ∧ ∀ n, c ∉ (h.node n).deps ∧ c ∉ (h.node n).data := by
  have h1 := hi.refs c
  refine ⟨by omega, by omega, fun n => ⟨fun hm => ?_, fun hm => ?_⟩⟩
  · have := held_pos (hi.holder_lt (Or.inl hm)) (Or.inl hm); omega
  · have := held_pos (hi.holder_lt (Or.inr hm)) (Or.inr hm); omega

/-- The free function of `c` may be called. -/
theorem HInv.allowed_freed (hi : HInv h R A Q B) {c : Nat} (hq : Q c ≠ 0) : Allowed h.trace (.freed c) := by
  have hal := hi.alive (c := c) (Or.inr (Or.inr (Or.inl hq)))
  have hp := hi.place c hal.1
  have hrc : (h.node c).rc = 0 := by
    have h3 : (h.node c).alive = 0 := by omega
    unfold Node.alive at h3
    split at h3
    · assumption
    · cases h3
  refine ⟨fun hm => hq (hi.freed_place hm).2.2.2, ?_, ?_, ?_⟩
  · have h1 := hi.deleted
    rw [hal.2.2] at h1
    exact List.count_eq_zero.1 h1
  · obtain ⟨ds, xs, f, hm⟩ := hi.all c hal.1
    have hf := (hi.made c ds xs f hm).2.1
    cases f with
    | true => exact ⟨ds, xs, hm⟩
    | false => exact absurd (hi.nofree c hf).1 hq
  · intro n ds xs f hm hc
    rcases (hi.made n ds xs f hm).2.2.2 c hc with h1 | h1
    · exact absurd h1 ((hi.unheld hrc).2.2 n).2
    · exact h1

theorem HInv.allowed_created (hi : HInv h R A Q B) {deps data : List Nat} {f : Bool} (hcf : h.coreFreed = false)
    (hdeps : ∀ d ∈ deps, 0 < h.ext d) (hdata : ∀ d ∈ data, data.count d ≤ h.ext d) :
    Allowed h.trace (.created h.next deps data f) := by
  refine ⟨?_, ?_, ?_⟩
  · intro ds xs g hm
    have := (hi.made h.next ds xs g hm).1
    omega
  · intro hm
    rw [hi.released, hcf] at hm
    cases hm
  · intro d hd
    have he : 0 < h.ext d := by
      rcases hd with hd | hd
      · exact hdeps d hd
      · have h1 := hdata d hd
        have h2 := List.count_pos_iff.2 hd
        omega
    have hrc : (h.node d).rc ≠ 0 := by have := hi.refs d; omega
    exact ⟨hi.all d (hi.lt (Or.inl hrc)), fun hm => hrc (hi.freed_place hm).2.1⟩

/-- When the last instance is gone. -/
theorem HInv.allowed_deleted (hi : HInv h R A Q B) (h0 : h.inst = 0) (hcore : h.coreGone = false) :
    Allowed h.trace .coreDeleted := by
  have h1 := hi.inst
  refine ⟨?_, ?_, ?_⟩
  · have h2 := hi.deleted
    rw [hcore] at h2
    exact List.count_eq_zero.1 h2
  · rw [hi.released]
    cases hx : h.coreFreed with
    | true => rfl
    | false => rw [hx] at h1; simp only [Bool.false_eq_true, if_false] at h1; omega
  · intro n ds xs hm
    obtain ⟨g1, g2, _, _⟩ := hi.made n ds xs true hm
    have hg := count_eq_zero (h := h) (by omega) g1
    have h3 := hi.freed n
    rw [g2] at h3
    refine List.count_pos_iff.1 ?_
    rw [h3]
    unfold Node.over
    rw [hg]
    simp only [if_true]
    omega

end

/-- What `filterInstanceDestroyed` adds to the trace. -/
theorem decInst_lawful {h : Heap} {R A Q B : Nat → Nat} (hcore : h.coreGone = false)
    (hi : HInv { h with inst := h.inst - 1 } R A Q B) (hl : Lawful h.trace) : Lawful h.decInst.trace := by
  unfold Heap.decInst
  rw [if_neg (by rw [hcore]; simp)]
  by_cases h0 : h.inst - 1 = 0
  · rw [if_pos h0]
    exact lawful_snoc hl (hi.allowed_deleted h0 hcore)
  · rw [if_neg h0]
    exact hl

theorem step_lawful {h h' : Heap} {t t' : Thread} {R A Q B : Nat → Nat} (hs : t.step h = some (h', t'))
    (hi : HInvT h t R A Q B) (hl : Lawful h.trace) : Lawful h'.trace := by
  obtain ⟨stack, depth, list⟩ := t
  unfold HInvT at hi
  cases stack with
  | nil => cases hs
  | cons a r =>
    simp only [sum_cons2] at hi
    have htouch : ∀ g : Heap, g.touch.trace = g.trace := by
      intro g; unfold Heap.touch; split <;> rfl
    cases a with
    | rel c =>
      simp only [Thread.step] at hs
      split at hs
      · injection hs with hs; injection hs with e1 _; subst e1; exact hl
      · split at hs
        · injection hs with hs; injection hs with e1 _; subst e1; rw [htouch]; exact hl
        · injection hs with hs; injection hs with e1 _; subst e1; exact hl
    | dtor c ds =>
      cases ds with
      | cons d ds =>
        simp only [Thread.step] at hs
        injection hs with hs; injection hs with e1 _; subst e1; exact hl
      | nil =>
        simp only [dtors_dtor] at hi
        have hal := hi.alive (c := c) (Or.inr (Or.inl (by rw [ind_self]; omega)))
        simp only [Thread.step] at hs
        rw [touch_eq hal.2.2] at hs
        have fin : ∀ (h2 : Heap) (l2 : List Nat), Lawful h2.trace →
            (if depth = 0 then some (h2, Thread.mk (.drain :: r) 1 l2) else some (h2, Thread.mk r depth l2)) =
              some (h', t') → Lawful h'.trace := by
          intro h2 l2 hl2 hs2
          split at hs2
          · injection hs2 with hs2; injection hs2 with e1 _; subst e1; exact hl2
          · injection hs2 with hs2; injection hs2 with e1 _; subst e1; exact hl2
        cases hf : (h.node c).hasFree with
        | true =>
          simp only [hf, if_true] at hs
          exact fin h _ hl hs
        | false =>
          simp only [hf, Bool.false_eq_true, if_false] at hs
          refine fin (h.instGone c) list ?_ hs
          exact decInst_lawful (h := h.setNode c { h.node c with gone := true }) hal.2.2
            (hi.over (A' := fun d => A d + (r.map (Frame.dtors d)).sum)
              (B' := fun d => B d + (r.map (Frame.frees d)).sum) hal.2.1 hal.1
              (by intro d; simp only [Frame.frees]; omega) (by intro hx; rw [hf] at hx; cases hx)
              (by intro _ d; simp only [Frame.frees]; omega) hal.2.2) hl
    | drain =>
      cases list with
      | nil =>
        simp only [Thread.step] at hs
        injection hs with hs; injection hs with e1 _; subst e1; exact hl
      | cons x l =>
        simp only [Thread.step] at hs
        injection hs with hs; injection hs with e1 _; subst e1
        rw [htouch]
        refine lawful_snoc hl (hi.allowed_freed ?_)
        rw [count_cons', ind_self]; omega
    | free c ds =>
      cases ds with
      | cons d ds =>
        simp only [Thread.step] at hs
        injection hs with hs; injection hs with e1 _; subst e1; exact hl
      | nil =>
        simp only [frees_free] at hi
        have hBc : B c + (ind c c + (r.map (Frame.frees c)).sum) ≠ 0 := by rw [ind_self]; omega
        have hal := hi.alive (c := c) (Or.inr (Or.inr (Or.inr hBc)))
        have hf : (h.node c).hasFree = true := by
          cases hx : (h.node c).hasFree with
          | true => rfl
          | false => exact absurd (hi.nofree c hx).2 hBc
        simp only [Thread.step] at hs
        injection hs with hs; injection hs with e1 _; subst e1
        exact decInst_lawful (h := h.setNode c { h.node c with gone := true }) hal.2.2
          (hi.over (A' := fun d => A d + (r.map (Frame.dtors d)).sum)
            (B' := fun d => B d + (r.map (Frame.frees d)).sum) hal.2.1 hal.1
            (by intro d; simp only [Frame.dtors]; omega) (by intro _ d; omega)
            (by intro hx; rw [hf] at hx; cases hx) hal.2.2) hl

theorem run_lawful {threads : Nat} {as : List Action} {s : State} (h : Run threads as s) : Lawful s.h.trace := by
  induction h with
  | nil =>
    intro past e rest he
    have : ([] : List Event) = past ++ e :: rest := he
    simp at this
  | @snoc as s s' a hr hs ih =>
    obtain ⟨h1, h2, h3⟩ := run_inv hr
    cases a with
    | create deps data f =>
      simp only [State.step] at hs
      split at hs
      · next hc =>
        injection hs with hs
        subst hs
        exact lawful_snoc ih (h1.allowed_created hc.1 hc.2.1 hc.2.2.1)
      · cases hs
    | addRef c =>
      simp only [State.step] at hs
      split at hs
      · injection hs with hs; subst hs; exact ih
      · cases hs
    | freeCore =>
      simp only [State.step] at hs
      split at hs
      · next hc =>
        injection hs with hs
        subst hs
        have hcore : s.h.coreGone = false := by
          cases hx : s.h.coreGone with
          | false => rfl
          | true =>
            have g1 := h1.core hx
            have g2 := h1.inst
            rw [hc] at g2
            simp only [Bool.false_eq_true, if_false] at g2
            omega
        have hl1 : Lawful (s.h.trace ++ [.coreReleased]) := by
          refine lawful_snoc ih ?_
          intro hm
          rw [h1.released, hc] at hm
          cases hm
        show Lawful (Heap.decInst _).trace
        unfold Heap.decInst
        rw [if_neg (by show ¬s.h.coreGone = true; rw [hcore]; simp)]
        split
        · next h0 =>
          refine lawful_snoc hl1 ⟨?_, ?_, ?_⟩
          · intro hm
            have g1 := h1.deleted
            rw [hcore] at g1
            rcases emit_mem.1 hm with hm | hm
            · exact List.count_eq_zero.1 g1 hm
            · cases hm
          · exact emit_mem.2 (Or.inr rfl)
          · intro n ds xs hm
            have hm' : Event.created n ds xs true ∈ s.h.trace := by
              rcases emit_mem.1 hm with hm | hm
              · exact hm
              · cases hm
            obtain ⟨g1, g2, _, _⟩ := h1.made n ds xs true hm'
            have g3 := h1.inst
            rw [hc] at g3
            simp only [Bool.false_eq_true, if_false] at g3
            have h0' : s.h.inst - 1 = 0 := h0
            have hg := count_eq_zero (h := s.h) (by omega) g1
            have g4 := h1.freed n
            rw [g2] at g4
            refine emit_mem.2 (Or.inl (List.count_pos_iff.1 ?_))
            rw [g4]
            unfold Node.over
            rw [hg]
            simp only [if_true]
            omega
        · exact hl1
      · cases hs
    | drop i c =>
      simp only [State.step] at hs
      split at hs
      · split at hs
        · injection hs with hs; subst hs; exact ih
        · cases hs
      · cases hs
    | run i =>
      simp only [State.step] at hs
      split at hs
      · next t ht =>
        split at hs
        · next h' t' hst =>
          injection hs with hs
          subst hs
          obtain ⟨l, r, e1, e2⟩ := get_split ht
          rw [e1] at h1
          simp only [total_mid] at h1
          exact step_lawful hst h1 ih
        · cases hs
      · cases hs

end VS.Life
