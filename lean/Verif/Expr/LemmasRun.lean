import Verif.Expr.LemmasCode

/-! # Expr: execution of the generated code -/

namespace VS.Expr

variable {α : Type}

/-- An instruction computes the value of register `d` from the values `V` of registers in `defs`. -/
def Step (A : Arith α) (px : Mem → Nat → α) (V : Nat → α) (defs : List Nat) (i : Insn α) (d : Nat) : Prop :=
  match i.op with
  | .load m c => V d = px m c ∧ i.src1 = none ∧ i.src2 = none ∧ i.src3 = none
  | .const a => V d = a ∧ i.src1 = none ∧ i.src2 = none ∧ i.src3 = none
  | .un o => ∃ s1, i.src1 = some s1 ∧ s1 ∈ defs ∧ V d = A.un o (V s1) ∧ i.src2 = none ∧ i.src3 = none
  | .bin o => ∃ s1 s2, i.src1 = some s1 ∧ s1 ∈ defs ∧ i.src2 = some s2 ∧ s2 ∈ defs ∧ V d = A.bin o (V s1) (V s2) ∧
      i.src3 = none
  | .tern o => ∃ s1 s2 s3, i.src1 = some s1 ∧ s1 ∈ defs ∧ i.src2 = some s2 ∧ s2 ∈ defs ∧ i.src3 = some s3 ∧
      s3 ∈ defs ∧ V d = A.tern o (V s1) (V s2) (V s3)
  | .store _ _ => False

/-- Straight line code in which each register is assigned once, before it is used. -/
def Ssa (A : Arith α) (px : Mem → Nat → α) (V : Nat → α) : List Nat → List (Insn α) → Prop
  | _, [] => True
  | defs, i :: rest => ∃ d, i.dst = some d ∧ d ∉ defs ∧ Step A px V defs i d ∧ Ssa A px V (d :: defs) rest

/-- Registers assigned by code, the last one first. -/
def dsts : List Nat → List (Insn α) → List Nat
  | defs, [] => defs
  | defs, i :: rest => dsts ((match i.dst with | some d => [d] | none => []) ++ defs) rest

theorem dsts_append (defs : List Nat) (a b : List (Insn α)) : dsts defs (a ++ b) = dsts (dsts defs a) b := by
  induction a generalizing defs with
  | nil => rfl
  | cons i t ih => exact ih _

theorem ssa_append {A : Arith α} {px : Mem → Nat → α} {V : Nat → α} {defs : List Nat} {a b : List (Insn α)}
    (ha : Ssa A px V defs a) (hb : Ssa A px V (dsts defs a) b) : Ssa A px V defs (a ++ b) := by
  induction a generalizing defs with
  | nil => exact hb
  | cons i t ih =>
    obtain ⟨d, h1, h2, h3, h4⟩ := ha
    refine ⟨d, h1, h2, h3, ih h4 ?_⟩
    rw [dsts, h1] at hb
    exact hb

/-- State of the code generation: numbers found are the registers assigned so far. -/
structure EInv (A : Arith α) (px : Mem → Nat → α) (V : Nat → α) (s : List (Insn α) × List (Option Nat)) : Prop where
  ssa : Ssa A px V [] s.1
  found : ∀ n : Nat, some n ∈ s.2 ↔ n ∈ dsts [] s.1

/-- Numbers of the nodes of a tree. -/
def vns : E α → List (Option Nat)
  | .load n _ _ => [n]
  | .const n _ => [n]
  | .un n _ l => n :: vns l
  | .bin n _ l r => n :: (vns l ++ vns r)
  | .tern n _ l a b => n :: (vns l ++ vns a ++ vns b)

/-- The values of the registers. -/
def Vals (A : Arith α) (px : Mem → Nat → α) (L : List (E α)) (V : Nat → α) : Prop :=
  ∀ k w, L[k]? = some w → V k = w.eval A px

theorem vals_at {A : Arith α} {px : Mem → Nat → α} {L : List (E α)} {V : Nat → α} (hv : Vals A px L V) {e : E α}
    (h : Rep L e) : ∃ k, e.vn = some k ∧ V k = e.eval A px := by
  obtain ⟨k, w, h1, h2, h3⟩ := h.at
  refine ⟨k, h1, ?_⟩
  rw [hv k w h2, ← eval_clone, h3, eval_clone]

theorem emitNode_spec {A : Arith α} {px : Mem → Nat → α} {V : Nat → α} {s : List (Insn α) × List (Option Nat)}
    (hs : EInv A px V s) {e : E α} {k : Nat} (hk : e.vn = some k)
    (hst : Step A px V (dsts [] s.1) (insnOf e) k) :
    EInv A px V (emitNode e s) ∧ e.vn ∈ (emitNode e s).2 ∧ (∀ n ∈ s.2, n ∈ (emitNode e s).2) ∧
      (∀ n ∈ (emitNode e s).2, n ∈ s.2 ∨ n = e.vn) := by
  have hd : (insnOf e).dst = some k := by rw [← hk]; cases e <;> rfl
  unfold emitNode
  split
  · next h => exact ⟨hs, h, fun n h => h, fun n h => Or.inl h⟩
  · next h =>
    refine ⟨⟨?_, ?_⟩, List.mem_cons_self, fun n h => List.mem_cons_of_mem _ h, ?_⟩
    · refine ssa_append hs.ssa ⟨k, hd, ?_, hst, trivial⟩
      rw [← hs.found k, ← hk]; exact h
    · intro n
      rw [dsts_append, dsts, dsts, hd, List.mem_cons, hk]
      simp [hs.found n]
    · intro n hn
      rcases List.mem_cons.1 hn with h | h
      · exact Or.inr h
      · exact Or.inl h

theorem emitTree_spec {A : Arith α} {px : Mem → Nat → α} {L : List (E α)} {V : Nat → α} (hv : Vals A px L V)
    (e : E α) : ∀ {s : List (Insn α) × List (Option Nat)}, EInv A px V s → Rep L e →
    EInv A px V (emitTree e s) ∧ e.vn ∈ (emitTree e s).2 ∧ (∀ n ∈ s.2, n ∈ (emitTree e s).2) ∧
      (∀ n ∈ (emitTree e s).2, n ∈ s.2 ∨ n ∈ vns e) := by
  induction e with
  | load n m c =>
    intro s hs hr
    obtain ⟨k, h1, h2⟩ := vals_at hv hr
    obtain ⟨a, b, c, d⟩ := emitNode_spec hs h1 (show Step A px V _ (insnOf (.load n m c)) k from ⟨h2, rfl, rfl, rfl⟩)
    refine ⟨a, b, c, fun n h => ?_⟩
    rcases d n h with h | h
    · exact Or.inl h
    · exact Or.inr (by rw [h]; simp [vns, E.vn])
  | const n a =>
    intro s hs hr
    obtain ⟨k, h1, h2⟩ := vals_at hv hr
    obtain ⟨a, b, c, d⟩ := emitNode_spec hs h1 (show Step A px V _ (insnOf (.const n a)) k from ⟨h2, rfl, rfl, rfl⟩)
    refine ⟨a, b, c, fun n h => ?_⟩
    rcases d n h with h | h
    · exact Or.inl h
    · exact Or.inr (by rw [h]; simp [vns, E.vn])
  | un n o l ih =>
    intro s hs hr
    obtain ⟨a1, a2, a3, a4⟩ := ih hs hr.1
    obtain ⟨k, h1, h2⟩ := vals_at hv hr
    obtain ⟨k1, g1, g2⟩ := vals_at hv hr.1
    obtain ⟨a, b, c, d⟩ := emitNode_spec a1 h1 (show Step A px V _ (insnOf (.un n o l)) k from
      ⟨k1, g1, (a1.found k1).1 (g1 ▸ a2), by rw [h2, g2]; rfl, rfl, rfl⟩)
    refine ⟨a, b, fun n h => c n (a3 n h), fun n h => ?_⟩
    rcases d n h with h | h
    · rcases a4 n h with h | h
      · exact Or.inl h
      · exact Or.inr (List.mem_cons_of_mem _ h)
    · exact Or.inr (by rw [h]; simp [vns, E.vn])
  | bin n o l r i1 i2 =>
    intro s hs hr
    obtain ⟨a1, a2, a3, a4⟩ := i1 hs hr.1
    obtain ⟨b1, b2, b3, b4⟩ := i2 a1 hr.2.1
    obtain ⟨k, h1, h2⟩ := vals_at hv hr
    obtain ⟨k1, g1, g2⟩ := vals_at hv hr.1
    obtain ⟨k2, g3, g4⟩ := vals_at hv hr.2.1
    obtain ⟨a, b, c, d⟩ := emitNode_spec b1 h1 (show Step A px V _ (insnOf (.bin n o l r)) k from
      ⟨k1, k2, g1, (b1.found k1).1 (b3 _ (g1 ▸ a2)), g3, (b1.found k2).1 (g3 ▸ b2), by rw [h2, g2, g4]; rfl, rfl⟩)
    refine ⟨a, b, fun n h => c n (b3 n (a3 n h)), fun n h => ?_⟩
    rcases d n h with h | h
    · rcases b4 n h with h | h
      · rcases a4 n h with h | h
        · exact Or.inl h
        · exact Or.inr (by simp [vns, h])
      · exact Or.inr (by simp [vns, h])
    · exact Or.inr (by rw [h]; simp [vns, E.vn])
  | tern n o l a b i1 i2 i3 =>
    intro s hs hr
    obtain ⟨a1, a2, a3, a4⟩ := i1 hs hr.1
    obtain ⟨b1, b2, b3, b4⟩ := i2 a1 hr.2.1
    obtain ⟨c1, c2, c3, c4⟩ := i3 b1 hr.2.2.1
    obtain ⟨k, h1, h2⟩ := vals_at hv hr
    obtain ⟨k1, g1, g2⟩ := vals_at hv hr.1
    obtain ⟨k2, g3, g4⟩ := vals_at hv hr.2.1
    obtain ⟨k3, g5, g6⟩ := vals_at hv hr.2.2.1
    obtain ⟨e1, e2, e3, e4⟩ := emitNode_spec c1 h1 (show Step A px V _ (insnOf (.tern n o l a b)) k from
      ⟨k1, k2, k3, g1, (c1.found k1).1 (c3 _ (b3 _ (g1 ▸ a2))), g3, (c1.found k2).1 (c3 _ (g3 ▸ b2)), g5,
        (c1.found k3).1 (g5 ▸ c2), by rw [h2, g2, g4, g6]; rfl⟩)
    refine ⟨e1, e2, fun n h => e3 n (c3 n (b3 n (a3 n h))), fun n h => ?_⟩
    rcases e4 n h with h | h
    · rcases c4 n h with h | h
      · rcases b4 n h with h | h
        · rcases a4 n h with h | h
          · exact Or.inl h
          · exact Or.inr (by simp [vns, h])
        · exact Or.inr (by simp [vns, h])
      · exact Or.inr (by simp [vns, h])
    · exact Or.inr (by rw [h]; simp [vns, E.vn])

/-- Number of nodes. -/
def size : E α → Nat
  | .load .. => 1
  | .const .. => 1
  | .un _ _ l => size l + 1
  | .bin _ _ l r => size l + size r + 1
  | .tern _ _ l a b => size l + size a + size b + 1

theorem size_clone (e : E α) : size e.clone = size e := by
  induction e <;> simp_all [E.clone, size]

/-- A number in a tree stands for a tree that is not larger. -/
theorem vns_size {L : List (E α)} (e : E α) (h : Rep L e) : ∀ n ∈ vns e, ∃ x : E α, Rep L x ∧ x.vn = n ∧ size x ≤ size e := by
  induction e with
  | load n m c => intro k hk; exact ⟨_, h, by simp only [vns, List.mem_singleton] at hk; exact hk.symm, Nat.le_refl _⟩
  | const n a => intro k hk; exact ⟨_, h, by simp only [vns, List.mem_singleton] at hk; exact hk.symm, Nat.le_refl _⟩
  | un n o l ih =>
    intro k hk
    simp only [vns, List.mem_cons] at hk
    rcases hk with rfl | hk
    · exact ⟨_, h, rfl, Nat.le_refl _⟩
    · obtain ⟨x, a, b, c⟩ := ih h.1 k hk
      exact ⟨x, a, b, by simp only [size]; omega⟩
  | bin n o l r i1 i2 =>
    intro k hk
    simp only [vns, List.mem_cons, List.mem_append] at hk
    rcases hk with rfl | hk | hk
    · exact ⟨_, h, rfl, Nat.le_refl _⟩
    · obtain ⟨x, a, b, c⟩ := i1 h.1 k hk
      exact ⟨x, a, b, by simp only [size]; omega⟩
    · obtain ⟨x, a, b, c⟩ := i2 h.2.1 k hk
      exact ⟨x, a, b, by simp only [size]; omega⟩
  | tern n o l a b i1 i2 i3 =>
    intro k hk
    simp only [vns, List.mem_cons, List.mem_append] at hk
    rcases hk with rfl | (hk | hk) | hk
    · exact ⟨_, h, rfl, Nat.le_refl _⟩
    · obtain ⟨x, a, b, c⟩ := i1 h.1 k hk
      exact ⟨x, a, b, by simp only [size]; omega⟩
    · obtain ⟨x, a, b, c⟩ := i2 h.2.1 k hk
      exact ⟨x, a, b, by simp only [size]; omega⟩
    · obtain ⟨x, a, b, c⟩ := i3 h.2.2.1 k hk
      exact ⟨x, a, b, by simp only [size]; omega⟩

theorem not_vns {L : List (E α)} (hi : Inj L) {e x : E α} (he : Rep L e) (hx : Rep L x) (h : size x < size e) :
    e.vn ∉ vns x := by
  intro hm
  obtain ⟨y, h1, h2, h3⟩ := vns_size x hx _ hm
  have := (vn_iff hi h1 he).1 h2
  have : size y = size e := by rw [← size_clone y, this, size_clone]
  omega

theorem eInv_empty (A : Arith α) (px : Mem → Nat → α) (V : Nat → α) : EInv A px V ([], []) :=
  ⟨trivial, by intro n; simp [dsts]⟩

theorem emitNode_last {e : E α} {s : List (Insn α) × List (Option Nat)} (h : e.vn ∉ s.2) :
    (emitNode e s).1.getLast? = some (insnOf e) := by
  unfold emitNode
  rw [if_neg h]
  simp

/-- The generated code in front of the store. -/
theorem emit_root {A : Arith α} {px : Mem → Nat → α} {L : List (E α)} {V : Nat → α} (hv : Vals A px L V)
    (hi : Inj L) {e : E α} (hr : Rep L e) :
    Ssa A px V [] (emitTree e ([], [])).1 ∧ (emitTree e ([], [])).1.getLast? = some (insnOf e) ∧
      ∃ k, (insnOf e).dst = some k ∧ k ∈ dsts [] (emitTree e ([], [])).1 ∧ V k = e.eval A px := by
  obtain ⟨h1, h2, _, _⟩ := emitTree_spec hv e (eInv_empty A px V) hr
  obtain ⟨k, g1, g2⟩ := vals_at hv hr
  have hd : (insnOf e).dst = some k := by rw [← g1]; cases e <;> rfl
  refine ⟨h1.ssa, ?_, k, hd, (h1.found k).1 (g1 ▸ h2), g2⟩
  cases e with
  | load n m c => exact emitNode_last (by simp)
  | const n a => exact emitNode_last (by simp)
  | un n o l =>
    refine emitNode_last fun hm => ?_
    obtain ⟨_, _, _, a4⟩ := emitTree_spec hv l (eInv_empty A px V) hr.1
    rcases a4 _ hm with h | h
    · simp at h
    · exact not_vns hi hr hr.1 (by simp only [size]; omega) h
  | bin n o l r =>
    refine emitNode_last fun hm => ?_
    obtain ⟨b1, _, _, a4⟩ := emitTree_spec hv l (eInv_empty A px V) hr.1
    obtain ⟨_, _, _, b4⟩ := emitTree_spec hv r b1 hr.2.1
    rcases b4 _ hm with h | h
    · rcases a4 _ h with h | h
      · simp at h
      · exact not_vns hi hr hr.1 (by simp only [size]; omega) h
    · exact not_vns hi hr hr.2.1 (by simp only [size]; omega) h
  | tern n o l a b =>
    refine emitNode_last fun hm => ?_
    obtain ⟨b1, _, _, a4⟩ := emitTree_spec hv l (eInv_empty A px V) hr.1
    obtain ⟨c1, _, _, b4⟩ := emitTree_spec hv a b1 hr.2.1
    obtain ⟨_, _, _, c4⟩ := emitTree_spec hv b c1 hr.2.2.1
    rcases c4 _ hm with h | h
    · rcases b4 _ h with h | h
      · rcases a4 _ h with h | h
        · simp at h
        · exact not_vns hi hr hr.1 (by simp only [size]; omega) h
      · exact not_vns hi hr hr.2.1 (by simp only [size]; omega) h
    · exact not_vns hi hr hr.2.2.1 (by simp only [size]; omega) h

/-- Code with a store at the end. -/
def Full (A : Arith α) (px : Mem → Nat → α) (V : Nat → α) (m : Mem) (bits : Nat) (v : α) :
    List Nat → List (Insn α) → Prop
  | _, [] => False
  | defs, i :: rest =>
    (∃ d, i.dst = some d ∧ d ∉ defs ∧ Step A px V defs i d ∧ Full A px V m bits v (d :: defs) rest) ∨
    (rest = [] ∧ i.op = .store m bits ∧ i.dst = none ∧ i.src2 = none ∧ i.src3 = none ∧
      ∃ r, i.src1 = some r ∧ r ∈ defs ∧ V r = v)

theorem full_of_ssa {A : Arith α} {px : Mem → Nat → α} {V : Nat → α} {m : Mem} {bits : Nat} {v : α}
    {defs : List Nat} {code : List (Insn α)} (h : Ssa A px V defs code) {k : Nat} (hk : k ∈ dsts defs code)
    (hv : V k = v) : Full A px V m bits v defs (code ++ [⟨.store m bits, none, some k, none, none⟩]) := by
  induction code generalizing defs with
  | nil => exact Or.inr ⟨rfl, rfl, rfl, rfl, rfl, k, rfl, hk, hv⟩
  | cons i t ih =>
    obtain ⟨d, h1, h2, h3, h4⟩ := h
    refine Or.inl ⟨d, h1, h2, h3, ih h4 ?_⟩
    rw [dsts, h1] at hk
    exact hk

/-- Is the register read by one of the instructions? -/
def Live (code : List (Insn α)) (r : Nat) : Prop := code.any (reads r) = true

theorem least_mem : ∀ {l : List Nat} {r : Nat}, least l = some r → r ∈ l
  | a :: t, r, h => by
    unfold least at h
    split at h
    · cases h; exact List.mem_cons_self
    · next b hb =>
      cases h
      split
      · exact List.mem_cons_self
      · exact List.mem_cons_of_mem _ (least_mem hb)

/-- State of the renaming. -/
structure RInv (V : Nat → α) (defs : List Nat) (code : List (Insn α)) (table : Nat → Nat) (free : List Nat)
    (regs : List α) : Prop where
  val : ∀ r ∈ defs, Live code r → regs[table r]? = some (V r)
  inj : ∀ r ∈ defs, ∀ r' ∈ defs, Live code r → Live code r' → table r = table r' → r = r'
  free : ∀ f ∈ free, f ∈ defs ∧ ∀ r ∈ defs, Live code r → table r ≠ f
  mem : ∀ r ∈ defs, Live code r → table r ∈ defs
  new : ∀ x, x ∉ defs → table x = x

/-- What renaming one source does to the free list. -/
theorem renameSrc_free {rest : List (Insn α)} {table : Nat → Nat} {free : List Nat} {s : Option Nat} {f : Nat}
    (h : f ∈ (renameSrc rest table free s).2) : f ∈ free ∨ ∃ r, s = some r ∧ ¬ Live rest r ∧ f = table r := by
  unfold renameSrc at h
  cases s with
  | none => exact Or.inl h
  | some r =>
    simp only at h
    split at h
    · exact Or.inl h
    · next hl =>
      simp only at h
      split at h
      · exact Or.inl h
      · rcases List.mem_cons.1 h with h | h
        · exact Or.inr ⟨r, rfl, hl, h⟩
        · exact Or.inl h

theorem renameSrc_reg (rest : List (Insn α)) (table : Nat → Nat) (free : List Nat) (s : Option Nat) :
    (renameSrc rest table free s).1 = s.map table := by
  unfold renameSrc
  cases s with
  | none => rfl
  | some r => simp only; split <;> rfl

theorem live_cons {i : Insn α} {rest : List (Insn α)} {r : Nat} (h : Live rest r) : Live (i :: rest) r := by
  unfold Live at *
  rw [List.any_cons, h, Bool.or_true]

theorem live_src {i : Insn α} {rest : List (Insn α)} {r : Nat}
    (h : i.src1 = some r ∨ i.src2 = some r ∨ i.src3 = some r) : Live (i :: rest) r := by
  unfold Live reads
  rw [List.any_cons, decide_eq_true h, Bool.true_or]

/-- The free list after the sources. -/
theorem free_after {V : Nat → α} {defs : List Nat} {i : Insn α} {rest : List (Insn α)} {table : Nat → Nat}
    {free : List Nat} {regs : List α} (h : RInv V defs (i :: rest) table free regs)
    (hsrc : ∀ r, i.src1 = some r ∨ i.src2 = some r ∨ i.src3 = some r → r ∈ defs) :
    ∀ f ∈ (renameSrc rest table (renameSrc rest table (renameSrc rest table free i.src1).2 i.src2).2 i.src3).2,
      f ∈ defs ∧ ∀ r ∈ defs, Live rest r → table r ≠ f := by
  have key : ∀ r, (i.src1 = some r ∨ i.src2 = some r ∨ i.src3 = some r) → ¬ Live rest r → ∀ f, f = table r →
      f ∈ defs ∧ ∀ r ∈ defs, Live rest r → table r ≠ f := by
    intro r hr hl f hf
    subst hf
    refine ⟨h.mem r (hsrc r hr) (live_src hr), fun q hq hql he => ?_⟩
    have := h.inj q hq r (hsrc r hr) (live_cons hql) (live_src hr) he
    exact hl (this ▸ hql)
  intro f hf
  rcases renameSrc_free hf with hf | ⟨r, hr, hl, hf⟩
  · rcases renameSrc_free hf with hf | ⟨r, hr, hl, hf⟩
    · rcases renameSrc_free hf with hf | ⟨r, hr, hl, hf⟩
      · exact ⟨(h.free f hf).1, fun r hr hl => (h.free f hf).2 r hr (live_cons hl)⟩
      · exact key r (Or.inl hr) hl f hf
    · exact key r (Or.inr (Or.inl hr)) hl f hf
  · exact key r (Or.inr (Or.inr hr)) hl f hf

theorem Step.src {A : Arith α} {px : Mem → Nat → α} {V : Nat → α} {defs : List Nat} {i : Insn α} {d : Nat}
    (h : Step A px V defs i d) : ∀ r, i.src1 = some r ∨ i.src2 = some r ∨ i.src3 = some r → r ∈ defs := by
  intro r hr
  unfold Step at h
  split at h
  · obtain ⟨_, h1, h2, h3⟩ := h; rw [h1, h2, h3] at hr; simp at hr
  · obtain ⟨_, h1, h2, h3⟩ := h; rw [h1, h2, h3] at hr; simp at hr
  · obtain ⟨s1, h1, h2, _, h3, h4⟩ := h
    rw [h1, h3, h4] at hr
    rcases hr with hr | hr | hr <;> cases hr
    exact h2
  · obtain ⟨s1, s2, h1, h2, h3, h4, _, h5⟩ := h
    rw [h1, h3, h5] at hr
    rcases hr with hr | hr | hr <;> cases hr
    · exact h2
    · exact h4
  · obtain ⟨s1, s2, s3, h1, h2, h3, h4, h5, h6, _⟩ := h
    rw [h1, h3, h5] at hr
    rcases hr with hr | hr | hr <;> cases hr
    · exact h2
    · exact h4
    · exact h6
  · exact h.elim

/-- One instruction on renamed registers: the value is written to register `r`. -/
theorem run_step {A : Arith α} {px : Mem → Nat → α} {V : Nat → α} {defs : List Nat} {i : Insn α} {d : Nat}
    (h : Step A px V defs i d) {table : Nat → Nat} {regs : List α} {rest rest' : List (Insn α)}
    (hval : ∀ r ∈ defs, Live (i :: rest) r → regs[table r]? = some (V r)) {r : Nat} (hr : r < regs.length) :
    run A px (⟨i.op, some r, i.src1.map table, i.src2.map table, i.src3.map table⟩ :: rest') regs =
      run A px rest' (regs.set r (V d)) := by
  have hg : ∀ s, s ∈ defs → (i.src1 = some s ∨ i.src2 = some s ∨ i.src3 = some s) →
      getReg regs ((some s).map table) = .ok (V s) := by
    intro s hs hl
    simp only [getReg, Option.map_some, hval s hs (live_src hl)]
  unfold Step at h
  split at h
  · next m c ho =>
    obtain ⟨h1, _⟩ := h
    simp only [run, ho, setReg, if_pos hr, h1]
    rfl
  · next a ho =>
    obtain ⟨h1, _⟩ := h
    simp only [run, ho, setReg, if_pos hr, h1]
    rfl
  · next o ho =>
    obtain ⟨s1, h1, h2, h3, _⟩ := h
    simp only [run, ho, h1, hg s1 h2 (Or.inl h1), setReg, if_pos hr, h3]
    rfl
  · next o ho =>
    obtain ⟨s1, s2, h1, h2, h3, h4, h5, _⟩ := h
    simp only [run, ho, h1, h3, hg s1 h2 (Or.inl h1), hg s2 h4 (Or.inr (Or.inl h3)), setReg, if_pos hr, h5]
    rfl
  · next o ho =>
    obtain ⟨s1, s2, s3, h1, h2, h3, h4, h5, h6, h7⟩ := h
    simp only [run, ho, h1, h3, h5, hg s1 h2 (Or.inl h1), hg s2 h4 (Or.inr (Or.inl h3)),
      hg s3 h6 (Or.inr (Or.inr h5)), setReg, if_pos hr, h7]
    rfl
  · exact h.elim

/-- Renamed code computes what the code with one register for each value computes. -/
theorem run_rename {A : Arith α} {px : Mem → Nat → α} {V : Nat → α} {m : Mem} {bits : Nat} {v : α}
    (code : List (Insn α)) : ∀ {defs : List Nat} {table : Nat → Nat} {free : List Nat} {regs : List α},
    Full A px V m bits v defs code → RInv V defs code table free regs →
    (∀ i ∈ renameLoop code table free, ∀ d, i.dst = some d → d < regs.length) →
    ∃ regs', run A px (renameLoop code table free) regs = .ok (storeVal A m bits v, regs') ∧
      regs'.length = regs.length := by
  induction code with
  | nil => intro defs table free regs h; exact h.elim
  | cons i rest ih =>
    intro defs table free regs hf hR hb
    rcases hf with ⟨d, h1, h2, h3, h4⟩ | ⟨rfl, h2, h3, h4, h5, r, h6, h7, h8⟩
    · have hfree := free_after hR h3.src
      unfold renameLoop at hb ⊢
      simp only [renameSrc_reg, h1] at hb ⊢
      generalize hc : (renameSrc rest table (renameSrc rest table (renameSrc rest table free i.src1).2 i.src2).2
        i.src3).2 = fr at *
      cases hl : least fr with
      | some r =>
        rw [hl] at hb
        simp only at hb ⊢
        have hrm := least_mem hl
        obtain ⟨hrd, hrl⟩ := hfree r hrm
        have hrlt : r < regs.length := hb _ List.mem_cons_self r rfl
        rw [run_step h3 hR.val hrlt]
        have hl' : (regs.set r (V d)).length = regs.length := List.length_set
        rw [← hl']
        refine ih h4 ⟨?_, ?_, ?_, ?_, ?_⟩ ?_
        · intro x hx hxl
          by_cases hxd : x = d
          · subst hxd
            rw [if_pos rfl, List.getElem?_set_self hrlt]
          · rw [if_neg hxd]
            have hx := (List.mem_cons.1 hx).resolve_left hxd
            rw [List.getElem?_set_ne (fun he => hrl x hx hxl he.symm)]
            exact hR.val x hx (live_cons hxl)
        · intro x hx y hy hxl hyl he
          by_cases hxd : x = d
          · by_cases hyd : y = d
            · rw [hxd, hyd]
            · rw [if_pos hxd, if_neg hyd] at he
              exact absurd he.symm (hrl y ((List.mem_cons.1 hy).resolve_left hyd) hyl)
          · by_cases hyd : y = d
            · rw [if_neg hxd, if_pos hyd] at he
              exact absurd he (hrl x ((List.mem_cons.1 hx).resolve_left hxd) hxl)
            · rw [if_neg hxd, if_neg hyd] at he
              exact hR.inj x ((List.mem_cons.1 hx).resolve_left hxd) y ((List.mem_cons.1 hy).resolve_left hyd)
                (live_cons hxl) (live_cons hyl) he
        · intro f hf
          rcases List.mem_cons.1 hf with hf | hf
          · subst hf
            refine ⟨List.mem_cons_self, fun x hx hxl => ?_⟩
            by_cases hxd : x = f
            · rw [if_pos hxd]; intro he; exact h2 (he ▸ hrd)
            · rw [if_neg hxd]
              intro he
              exact h2 (he ▸ hR.mem x ((List.mem_cons.1 hx).resolve_left hxd) (live_cons hxl))
          · obtain ⟨hf1, hf2⟩ := List.mem_filter.1 hf
            obtain ⟨g1, g2⟩ := hfree f hf1
            refine ⟨List.mem_cons_of_mem _ g1, fun x hx hxl => ?_⟩
            by_cases hxd : x = d
            · rw [if_pos hxd]; intro he; rw [he] at hf2; simp at hf2
            · rw [if_neg hxd]; exact g2 x ((List.mem_cons.1 hx).resolve_left hxd) hxl
        · intro x hx hxl
          by_cases hxd : x = d
          · rw [if_pos hxd]; exact List.mem_cons_of_mem _ hrd
          · rw [if_neg hxd]
            exact List.mem_cons_of_mem _ (hR.mem x ((List.mem_cons.1 hx).resolve_left hxd) (live_cons hxl))
        · intro x hx
          rw [List.mem_cons, not_or] at hx
          rw [if_neg hx.1]
          exact hR.new x hx.2
        · intro j hj k hk
          rw [hl']
          exact hb j (List.mem_cons_of_mem _ hj) k hk
      | none =>
        rw [hl] at hb
        simp only at hb ⊢
        have hdt := hR.new d h2
        have hdlt : d < regs.length := hb _ List.mem_cons_self d rfl
        rw [run_step h3 hR.val hdlt]
        have hl' : (regs.set d (V d)).length = regs.length := List.length_set
        rw [← hl']
        refine ih h4 ⟨?_, ?_, ?_, ?_, ?_⟩ ?_
        · intro x hx hxl
          rcases List.mem_cons.1 hx with hx | hx
          · subst hx
            rw [hdt, List.getElem?_set_self hdlt]
          · rw [List.getElem?_set_ne (show d ≠ table x from fun he => h2 (he ▸ hR.mem x hx (live_cons hxl)))]
            exact hR.val x hx (live_cons hxl)
        · intro x hx y hy hxl hyl he
          rcases List.mem_cons.1 hx with hx | hx
          · rcases List.mem_cons.1 hy with hy | hy
            · rw [hx, hy]
            · rw [hx, hdt] at he
              exact absurd (he ▸ hR.mem y hy (live_cons hyl)) h2
          · rcases List.mem_cons.1 hy with hy | hy
            · rw [hy, hdt] at he
              exact absurd (he ▸ hR.mem x hx (live_cons hxl)) h2
            · exact hR.inj x hx y hy (live_cons hxl) (live_cons hyl) he
        · intro f hf
          obtain ⟨g1, g2⟩ := hfree f hf
          refine ⟨List.mem_cons_of_mem _ g1, fun x hx hxl => ?_⟩
          rcases List.mem_cons.1 hx with hx | hx
          · rw [hx, hdt]; intro he; exact h2 (he ▸ g1)
          · exact g2 x hx hxl
        · intro x hx hxl
          rcases List.mem_cons.1 hx with hx | hx
          · rw [hx, hdt]; exact List.mem_cons_self
          · exact List.mem_cons_of_mem _ (hR.mem x hx (live_cons hxl))
        · intro x hx
          rw [List.mem_cons, not_or] at hx
          exact hR.new x hx.2
        · intro j hj k hk
          rw [hl']
          exact hb j (List.mem_cons_of_mem _ hj) k hk
    · refine ⟨regs, ?_, rfl⟩
      unfold renameLoop
      simp only [renameSrc_reg, h2, h3, h6, Option.map_some]
      simp only [run, getReg, hR.val r h7 (live_src (Or.inl h6)), h8]
      rfl

theorem foldl_max_le (l : List (Insn α)) : ∀ m, m ≤ l.foldl (fun m i => max m (i.dst.getD 0)) m := by
  induction l with
  | nil => intro m; exact Nat.le_refl _
  | cons i t ih => intro m; exact Nat.le_trans (Nat.le_max_left _ _) (ih _)

theorem numRegs_lt {code : List (Insn α)} {i : Insn α} (h : i ∈ code) {d : Nat} (hd : i.dst = some d) :
    d < numRegs code := by
  have : ∀ m, d ≤ code.foldl (fun m i => max m (i.dst.getD 0)) m := by
    intro m
    induction code generalizing m with
    | nil => cases h
    | cons j t ih =>
      rcases List.mem_cons.1 h with h | h
      · subst h
        refine Nat.le_trans ?_ (foldl_max_le t _)
        show d ≤ max m (i.dst.getD 0)
        rw [hd]; exact Nat.le_max_right _ _
      · exact ih h _
  exact Nat.lt_succ_of_le (this 0)

/-- Generated code stores the value of the tree, whatever is in the registers at the beginning. -/
theorem generate_run [DecidableEq α] (A : Arith α) (px : Mem → Nat → α) (e : E α) (m : Mem) (bits : Nat) :
    ∃ code, generate e m bits = .ok code ∧ ∀ regs : List α, regs.length = numRegs code →
      ∃ regs', run A px code regs = .ok (storeVal A m (if m = .u16 then bits else 0) (e.eval A px), regs') ∧
        regs'.length = numRegs code := by
  obtain ⟨L, hi, hr, hc⟩ := applyValueNumbering_spec e
  have he : (applyValueNumbering e).eval A px = e.eval A px := by rw [← eval_clone, hc, eval_clone]
  let V : Nat → α := fun k => ((L[k]?).map (fun w => w.eval A px)).getD (e.eval A px)
  have hv : Vals A px L V := by
    intro k w h
    simp only [V, h, Option.map_some, Option.getD_some]
  obtain ⟨h1, h2, k, h3, h4, h5⟩ := emit_root hv hi hr
  unfold generate
  simp only [h2, h3]
  refine ⟨_, rfl, fun regs hl => ?_⟩
  obtain ⟨regs', h6, h7⟩ := run_rename _ (full_of_ssa (m := m) (bits := if m = .u16 then bits else 0) h1 h4 h5)
    (table := fun x => x) (free := []) (regs := regs)
    ⟨fun r h => (nomatch h), fun r h => (nomatch h), fun r h => (nomatch h), fun r h => (nomatch h), fun _ _ => rfl⟩
    (fun i hi d hd => hl ▸ numRegs_lt hi hd)
  rw [he] at h6
  exact ⟨regs', h6, h7.trans hl⟩

end VS.Expr
