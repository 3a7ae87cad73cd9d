import Verif.Expr.Code

/-! # Expr: value numbering and code generation are faithful -/

namespace VS.Expr

variable {α : Type}

theorem clone_setVn (n : Option Nat) (e : E α) : (e.setVn n).clone = e.clone := by
  cases e <;> rfl

theorem vn_setVn (n : Option Nat) (e : E α) : (e.setVn n).vn = n := by cases e <;> rfl

theorem clone_clone (e : E α) : e.clone.clone = e.clone := by
  induction e <;> simp_all [E.clone]

theorem eval_clone (A : Arith α) (px : Mem → Nat → α) (e : E α) : e.clone.eval A px = e.eval A px := by
  induction e <;> simp_all [E.clone, E.eval]

theorem eval_setVn (A : Arith α) (px : Mem → Nat → α) (n : Option Nat) (e : E α) :
    (e.setVn n).eval A px = e.eval A px := by
  cases e <;> rfl

/-- The number of this node stands for this tree. -/
def At (L : List (E α)) (n : Option Nat) (c : E α) : Prop := ∃ k w, n = some k ∧ L[k]? = some w ∧ w.clone = c

/-- Every node has a number and the numbers stand for the trees under the nodes. -/
def Rep (L : List (E α)) : E α → Prop
  | .load n m c => At L n (.load none m c)
  | .const n a => At L n (.const none a)
  | .un n o l => Rep L l ∧ At L n (.un none o l.clone)
  | .bin n o l r => Rep L l ∧ Rep L r ∧ At L n (.bin none o l.clone r.clone)
  | .tern n o l a b => Rep L l ∧ Rep L a ∧ Rep L b ∧ At L n (.tern none o l.clone a.clone b.clone)

theorem Rep.at {L : List (E α)} {e : E α} (h : Rep L e) : At L e.vn e.clone := by
  cases e <;> simp only [Rep] at h <;> simp only [E.vn, E.clone] <;> first | exact h | exact h.2 | exact h.2.2 | exact h.2.2.2

theorem At.mono {L L' : List (E α)} (h : L <+: L') {n : Option Nat} {c : E α} (a : At L n c) : At L' n c := by
  obtain ⟨k, w, h1, h2, h3⟩ := a
  obtain ⟨t, rfl⟩ := h
  refine ⟨k, w, h1, ?_, h3⟩
  rw [List.getElem?_append_left (by obtain ⟨h, _⟩ := List.getElem?_eq_some_iff.1 h2; exact h)]
  exact h2

theorem Rep.mono {L L' : List (E α)} (h : L <+: L') {e : E α} (a : Rep L e) : Rep L' e := by
  induction e with
  | load => exact At.mono h a
  | const => exact At.mono h a
  | un n o l ih => exact ⟨ih a.1, At.mono h a.2⟩
  | bin n o l r i1 i2 => exact ⟨i1 a.1, i2 a.2.1, At.mono h a.2.2⟩
  | tern n o l a' b i1 i2 i3 => exact ⟨i1 a.1, i2 a.2.1, i3 a.2.2.1, At.mono h a.2.2.2⟩

/-- The trees of the table are pairwise different. -/
def Inj (L : List (E α)) : Prop :=
  ∀ (i j : Nat) (v w : E α), L[i]? = some v → L[j]? = some w → v.clone = w.clone → i = j

theorem vn_iff {L : List (E α)} (hi : Inj L) {x y : E α} (hx : Rep L x) (hy : Rep L y) :
    x.vn = y.vn ↔ x.clone = y.clone := by
  obtain ⟨k, w, h1, h2, h3⟩ := hx.at
  obtain ⟨k', w', h1', h2', h3'⟩ := hy.at
  constructor
  · intro h
    rw [h1, h1'] at h
    cases h
    rw [h2] at h2'
    cases h2'
    rw [← h3, ← h3']
  · intro h
    rw [h1, h1', hi k k' w w' h2 h2' (by rw [h3, h3', h])]

theorem Rep.isSome {L : List (E α)} {x : E α} (hx : Rep L x) : x.vn.isSome = true := by
  obtain ⟨k, w, h1, _, _⟩ := hx.at
  rw [h1]
  rfl

variable [DecidableEq α]

theorem equal_rep {x y : E α} (hx : x.vn.isSome = true) (hy : y.vn.isSome = true) :
    equalSubTree x y = decide (x.vn = y.vn) := by
  cases x <;> cases y <;> simp only [E.vn] at hx hy ⊢ <;> unfold equalSubTree <;> simp [hx, hy, E.vn] <;>
    exact decide_eq_decide.2 Iff.rfl

/-- A node without number over numbered children. -/
def Pre (L : List (E α)) : E α → Prop
  | .load n _ _ => n = none
  | .const n _ => n = none
  | .un n _ l => n = none ∧ Rep L l
  | .bin n _ l r => n = none ∧ Rep L l ∧ Rep L r
  | .tern n _ l a b => n = none ∧ Rep L l ∧ Rep L a ∧ Rep L b

theorem equal_pre {L : List (E α)} (hi : Inj L) {x t : E α} (hx : Pre L x) (ht : Rep L t) :
    equalSubTree x t = decide (x.clone = t.clone) := by
  cases x with
  | load n m c =>
    simp only [Pre] at hx; subst hx
    cases t <;> unfold equalSubTree <;> simp [E.clone, E.vn]
  | const n a =>
    simp only [Pre] at hx; subst hx
    cases t <;> unfold equalSubTree <;> simp [E.clone, E.vn]
  | un n o l =>
    simp only [Pre] at hx; obtain ⟨rfl, hl⟩ := hx
    cases t <;> unfold equalSubTree <;> simp [E.clone, E.vn]
    next n' o' l' =>
      rw [equal_rep hl.isSome ht.1.isSome]
      simp [vn_iff hi hl ht.1]
  | bin n o l r =>
    simp only [Pre] at hx; obtain ⟨rfl, hl, hr⟩ := hx
    cases t <;> unfold equalSubTree <;> simp [E.clone, E.vn]
    next n' o' l' r' =>
      rw [equal_rep hl.isSome ht.1.isSome, equal_rep hr.isSome ht.2.1.isSome]
      simp [vn_iff hi hl ht.1, vn_iff hi hr ht.2.1]
  | tern n o l a b =>
    simp only [Pre] at hx; obtain ⟨rfl, hl, ha, hb⟩ := hx
    cases t <;> unfold equalSubTree <;> simp [E.clone, E.vn]
    next n' o' l' a' b' =>
      rw [equal_rep hl.isSome ht.1.isSome, equal_rep ha.isSome ht.2.1.isSome, equal_rep hb.isSome ht.2.2.1.isSome]
      simp [vn_iff hi hl ht.1, vn_iff hi ha ht.2.1, vn_iff hi hb ht.2.2.1]

omit [DecidableEq α] in
theorem rep_of_pre {L : List (E α)} {x : E α} (hx : Pre L x) {n : Option Nat} (h : At L n x.clone) :
    Rep L (x.setVn n) := by
  cases x with
  | load => exact h
  | const => exact h
  | un => exact ⟨hx.2, h⟩
  | bin => exact ⟨hx.2.1, hx.2.2, h⟩
  | tern => exact ⟨hx.2.1, hx.2.2.1, hx.2.2.2, h⟩

omit [DecidableEq α] in
theorem Pre.mono {L L' : List (E α)} (h : L <+: L') {x : E α} (hx : Pre L x) : Pre L' x := by
  cases x with
  | load => exact hx
  | const => exact hx
  | un => exact ⟨hx.1, hx.2.mono h⟩
  | bin => exact ⟨hx.1, hx.2.1.mono h, hx.2.2.mono h⟩
  | tern => exact ⟨hx.1, hx.2.1.mono h, hx.2.2.1.mono h, hx.2.2.2.mono h⟩

/-- State of the numbering. -/
structure NInv (s : Numbering α) : Prop where
  next : s.next = s.numbered.length
  inj : Inj s.numbered
  rep : ∀ k t, s.numbered[k]? = some t → t.vn = some k ∧ Rep s.numbered t

theorem numberNode_spec {s : Numbering α} (hs : NInv s) {x : E α} (hx : Pre s.numbered x) :
    NInv (numberNode x s).2 ∧ s.numbered <+: (numberNode x s).2.numbered ∧
      Rep (numberNode x s).2.numbered (numberNode x s).1 ∧ (numberNode x s).1.clone = x.clone := by
  unfold numberNode
  cases hf : s.numbered.find? (fun t => equalSubTree x t) with
  | some t =>
    have hm := List.mem_of_find?_eq_some hf
    have he := List.find?_some hf
    obtain ⟨k, hk⟩ := List.getElem?_of_mem hm
    obtain ⟨h1, h2⟩ := hs.rep k t hk
    rw [equal_pre hs.inj hx h2] at he
    have he := of_decide_eq_true he
    refine ⟨hs, List.prefix_refl _, ?_, clone_setVn _ _⟩
    exact rep_of_pre hx ⟨k, t, h1, hk, he.symm⟩
  | none =>
    have hn : ∀ t ∈ s.numbered, x.clone ≠ t.clone := by
      intro t ht hc
      have := List.find?_eq_none.1 hf t ht
      obtain ⟨k, hk⟩ := List.getElem?_of_mem ht
      rw [equal_pre hs.inj hx (hs.rep k t hk).2] at this
      exact this (decide_eq_true hc)
    have hp : s.numbered <+: s.numbered ++ [x.setVn (some s.next)] := List.prefix_append _ _
    have hr : Rep (s.numbered ++ [x.setVn (some s.next)]) (x.setVn (some s.next)) := by
      refine rep_of_pre (hx.mono hp) ⟨s.next, x.setVn (some s.next), rfl, ?_, clone_setVn _ _⟩
      rw [hs.next]; simp
    refine ⟨⟨by simp [hs.next], ?_, ?_⟩, hp, hr, clone_setVn _ _⟩
    · intro i j v w hi hj hc
      rw [List.getElem?_append] at hi hj
      split at hi
      · split at hj
        · exact hs.inj i j v w hi hj hc
        · rw [List.getElem?_singleton] at hj
          split at hj
          · cases hj
            rw [clone_setVn] at hc
            exact absurd hc.symm (hn v (List.mem_of_getElem? hi))
          · cases hj
      · rw [List.getElem?_singleton] at hi
        split at hi
        · cases hi
          split at hj
          · rw [clone_setVn] at hc
            exact absurd hc (hn w (List.mem_of_getElem? hj))
          · rw [List.getElem?_singleton] at hj
            split at hj
            · omega
            · cases hj
        · cases hi
    · intro k t hk
      rw [List.getElem?_append] at hk
      split at hk
      · exact ⟨(hs.rep k t hk).1, (hs.rep k t hk).2.mono hp⟩
      · rw [List.getElem?_singleton] at hk
        split at hk
        · cases hk
          refine ⟨?_, hr⟩
          rw [vn_setVn, hs.next]
          congr 1; omega
        · cases hk

theorem number_spec (e : E α) : ∀ {s : Numbering α}, NInv s →
    NInv (number e s).2 ∧ s.numbered <+: (number e s).2.numbered ∧
      Rep (number e s).2.numbered (number e s).1 ∧ (number e s).1.clone = e.clone := by
  induction e with
  | load n m c =>
    intro s hs
    exact numberNode_spec hs (x := .load none m c) rfl
  | const n a =>
    intro s hs
    exact numberNode_spec hs (x := .const none a) rfl
  | un n o l ih =>
    intro s hs
    obtain ⟨a1, a2, a3, a4⟩ := ih hs
    obtain ⟨b1, b2, b3, b4⟩ := numberNode_spec a1 (x := .un none o (number l s).1) ⟨rfl, a3⟩
    refine ⟨b1, a2.trans b2, b3, ?_⟩
    rw [number, b4]; simp [E.clone, a4]
  | bin n o l r i1 i2 =>
    intro s hs
    obtain ⟨a1, a2, a3, a4⟩ := i1 hs
    obtain ⟨c1, c2, c3, c4⟩ := i2 a1
    obtain ⟨b1, b2, b3, b4⟩ := numberNode_spec c1
      (x := .bin none o (number l s).1 (number r (number l s).2).1) ⟨rfl, a3.mono c2, c3⟩
    refine ⟨b1, a2.trans (c2.trans b2), b3, ?_⟩
    rw [number, b4]; simp [E.clone, a4, c4]
  | tern n o l a b i1 i2 i3 =>
    intro s hs
    obtain ⟨a1, a2, a3, a4⟩ := i1 hs
    obtain ⟨c1, c2, c3, c4⟩ := i2 a1
    obtain ⟨d1, d2, d3, d4⟩ := i3 c1
    obtain ⟨b1, b2, b3, b4⟩ := numberNode_spec d1
      (x := .tern none o (number l s).1 (number a (number l s).2).1 (number b (number a (number l s).2).2).1)
      ⟨rfl, (a3.mono c2).mono d2, c3.mono d2, d3⟩
    refine ⟨b1, a2.trans (c2.trans (d2.trans b2)), b3, ?_⟩
    rw [number, b4]; simp [E.clone, a4, c4, d4]

theorem nInv_empty : NInv (α := α) ⟨[], 0⟩ := by
  refine ⟨rfl, ?_, ?_⟩
  · intro i j v w h; simp at h
  · intro k t h; simp at h

theorem applyValueNumbering_spec (e : E α) :
    ∃ L : List (E α), Inj L ∧ Rep L (applyValueNumbering e) ∧ (applyValueNumbering e).clone = e.clone := by
  obtain ⟨h1, _, h3, h4⟩ := number_spec e nInv_empty
  exact ⟨_, h1.inj, h3, h4⟩

end VS.Expr
