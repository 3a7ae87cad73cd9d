import Verif.Expr.FragNumbered
import Mathlib.Algebra.BigOperators.Group.List.Basic

/-! # Expr: sums and products are right for real numbers -/

namespace VS.Expr

variable {px : Mem → Nat → ℝ} {L : List (E ℝ)}

/-! ## Factors -/

/-- A factor `e ^ x` that may be taken apart. -/
structure K (px : Mem → Nat → ℝ) (L : List (E ℝ)) (e : E ℝ) (x : ℝ) : Prop where
  rep : Rep L e
  v : V px e
  f : F px e
  ok : PowOk (ev px e) x
  ex : (∃ n : ℤ, (n : ℝ) = x) ∨ S px e

theorem K.mul {n : Option Nat} {l r : E ℝ} {x : ℝ} (h : K px L (.bin n .mul l r) x) :
    K px L l x ∧ K px L r x ∧ ev px (.bin n .mul l r) ^ x = ev px l ^ x * ev px r ^ x := by
  obtain ⟨hr, hv, hf, ho, hx⟩ := h
  rw [ev_mul] at ho
  have key : PowOk (ev px l) x ∧ PowOk (ev px r) x ∧ (ev px l * ev px r) ^ x = ev px l ^ x * ev px r ^ x := by
    rcases hx with ⟨k, hk⟩ | ⟨s1, s2⟩
    · subst hk
      refine ⟨?_, ?_, ?_⟩
      · by_cases h0 : ev px l = 0
        · rw [h0, zero_mul] at ho
          exact Or.inr (Or.inl ⟨h0, ho.zero⟩)
        · exact PowOk.ofInt k h0
      · by_cases h0 : ev px r = 0
        · rw [h0, mul_zero] at ho
          exact Or.inr (Or.inl ⟨h0, ho.zero⟩)
        · exact PowOk.ofInt k h0
      · rw [Real.rpow_intCast, Real.rpow_intCast, Real.rpow_intCast, mul_zpow]
    · have n1 := S_nonneg s1
      have n2 := S_nonneg s2
      refine ⟨?_, ?_, Real.mul_rpow n1 n2⟩
      · rcases n1.lt_or_eq with h0 | h0
        · exact Or.inl h0
        · rw [← h0, zero_mul] at ho
          exact Or.inr (Or.inl ⟨h0.symm, ho.zero⟩)
      · rcases n2.lt_or_eq with h0 | h0
        · exact Or.inl h0
        · rw [← h0, mul_zero] at ho
          exact Or.inr (Or.inl ⟨h0.symm, ho.zero⟩)
  exact ⟨⟨hr.1, hv.1, hf.1, key.1, hx.imp id (fun s => s.1)⟩, ⟨hr.2.1, hv.2.1, hf.2.1, key.2.1, hx.imp id (fun s => s.2)⟩,
    key.2.2⟩

theorem K.div {n : Option Nat} {l r : E ℝ} {x : ℝ} (h : K px L (.bin n .div l r) x) :
    K px L l x ∧ K px L r (-x) ∧ ev px (.bin n .div l r) ^ x = ev px l ^ x * ev px r ^ (-x) := by
  obtain ⟨hr, hv, hf, ho, hx⟩ := h
  rw [ev_div] at ho
  have hne : ev px r ≠ 0 := hv.2.2
  have key : PowOk (ev px l) x ∧ PowOk (ev px r) (-x) ∧ (ev px l / ev px r) ^ x = ev px l ^ x * ev px r ^ (-x) := by
    rcases hx with ⟨k, hk⟩ | ⟨s1, s2⟩
    · subst hk
      refine ⟨?_, ?_, ?_⟩
      · by_cases h0 : ev px l = 0
        · rw [h0, zero_div] at ho
          exact Or.inr (Or.inl ⟨h0, ho.zero⟩)
        · exact PowOk.ofInt k h0
      · rw [← Int.cast_neg]; exact PowOk.ofInt _ hne
      · rw [← Int.cast_neg, Real.rpow_intCast, Real.rpow_intCast, Real.rpow_intCast, div_zpow, zpow_neg, div_eq_mul_inv]
    · have n1 := S_nonneg s1
      have n2 := S_nonneg s2
      have p2 : 0 < ev px r := lt_of_le_of_ne n2 (Ne.symm hne)
      refine ⟨?_, Or.inl p2, ?_⟩
      · rcases n1.lt_or_eq with h0 | h0
        · exact Or.inl h0
        · rw [← h0, zero_div] at ho
          exact Or.inr (Or.inl ⟨h0.symm, ho.zero⟩)
      · rw [Real.div_rpow n1 n2, Real.rpow_neg n2, div_eq_mul_inv]
  exact ⟨⟨hr.1, hv.1, hf.1, key.1, hx.imp id (fun s => s.1)⟩,
    ⟨hr.2.1, hv.2.1, hf.2.1, key.2.1, hx.imp (fun ⟨k, hk⟩ => ⟨-k, by rw [← hk]; simp⟩) (fun s => s.2)⟩, key.2.2⟩

theorem K.pow {n m : Option Nat} {l : E ℝ} {c x : ℝ} (h : K px L (.bin n .pow l (.const m c)) x) :
    K px L l (x * c) ∧ ev px (.bin n .pow l (.const m c)) ^ x = ev px l ^ (x * c) := by
  obtain ⟨hr, hv, hf, ho, hx⟩ := h
  rw [ev_pow, ev_const] at ho
  have hp : PowOk (ev px l) c := hv.2.2
  have hfc := hf.2.2 rfl
  have key := PowOk.mul hp ho (by
    intro hneg
    rcases hx with hx | hs
    · exact hx
    · exact absurd hneg (not_lt.2 (S_nonneg (show S px l from hs))))
  rw [mul_comm] at key
  refine ⟨⟨hr.1, hv.1, hf.1, key.1, ?_⟩, key.2.symm⟩
  rcases hx with ⟨k, hk⟩ | hs
  · rcases hfc with hs | ⟨_, j, hj⟩
    · exact Or.inr hs
    · refine Or.inl ⟨k * j, ?_⟩
      rw [ev_const] at hj
      rw [Int.cast_mul, hk, hj]
  · exact Or.inr hs

theorem K.add {e e' : E ℝ} {x y : ℝ} (hi : Inj L) (h : K px L e x) (h' : K px L e' y) (hv : e.vn = e'.vn) :
    K px L e (x + y) ∧ ev px e ^ (x + y) = ev px e ^ x * ev px e' ^ y := by
  have hev := ev_of_vn (px := px) hi h.rep h'.rep hv
  have ho := h'.ok
  rw [← hev] at ho ⊢
  obtain ⟨p1, p2⟩ := PowOk.add h.ok ho
  refine ⟨⟨h.rep, h.v, h.f, p1, ?_⟩, p2⟩
  rcases h.ex with ⟨k, hk⟩ | hs
  · rcases h'.ex with ⟨j, hj⟩ | hs
    · exact Or.inl ⟨k + j, by rw [Int.cast_add, hk, hj]⟩
    · exact Or.inr ((S_of_vn hi h.rep h'.rep hv).2 hs)
  · exact Or.inr hs

/-! ## Maps -/

/-- All factors may be taken apart. -/
def AK (px : Mem → Nat → ℝ) (L : List (E ℝ)) (m : PMap ℝ) : Prop := ∀ t ∈ m, K px L t.1 t.2

/-- Value of a product. -/
noncomputable def pv (px : Mem → Nat → ℝ) (m : PMap ℝ) : ℝ := (m.map (fun t => ev px t.1 ^ t.2)).prod

@[simp] theorem pv_nil : pv px [] = 1 := rfl
@[simp] theorem pv_cons (t : E ℝ × ℝ) (m : PMap ℝ) : pv px (t :: m) = ev px t.1 ^ t.2 * pv px m := rfl
theorem pv_append (m m' : PMap ℝ) : pv px (m ++ m') = pv px m * pv px m' := by simp [pv]
theorem AK_cons {t : E ℝ × ℝ} {m : PMap ℝ} : AK px L (t :: m) ↔ K px L t.1 t.2 ∧ AK px L m := by simp [AK]
theorem AK_nil : AK px L [] := fun _ h => nomatch h

theorem updExp_spec (hi : Inj L) {e : E ℝ} {x : ℝ} {f : ℝ → ℝ} (hf : ∀ y, f y = y + x) (he : K px L e x) (m : PMap ℝ)
    (hm : AK px L m) : AK px L (updExp realArith e f m) ∧ pv px (updExp realArith e f m) = pv px m * ev px e ^ x := by
  have h0 : f (realArith.ofInt 0) = x := by rw [hf]; simp
  induction m with
  | nil =>
    unfold updExp
    rw [h0]
    exact ⟨AK_cons.2 ⟨he, AK_nil⟩, by simp⟩
  | cons t m ih =>
    obtain ⟨k, y⟩ := t
    obtain ⟨h1, h2⟩ := AK_cons.1 hm
    unfold updExp
    split
    · rename_i hv
      obtain ⟨p1, p2⟩ := K.add hi h1 he hv.symm
      rw [← hf] at p1 p2
      refine ⟨AK_cons.2 ⟨p1, h2⟩, ?_⟩
      rw [pv_cons, pv_cons]
      simp only at p2 ⊢
      rw [p2]; ring
    · split
      · rw [h0]
        exact ⟨AK_cons.2 ⟨he, hm⟩, by rw [pv_cons]; ring⟩
      · obtain ⟨p1, p2⟩ := ih h2
        exact ⟨AK_cons.2 ⟨h1, p1⟩, by rw [pv_cons, p2, pv_cons]; ring⟩

/-- A property that products and powers hand down to their factors. -/
structure Down (Q : E ℝ → Prop) : Prop where
  mul : ∀ n l r, Q (.bin n .mul l r) → Q l ∧ Q r
  div : ∀ n l r, Q (.bin n .div l r) → Q l ∧ Q r
  pow : ∀ n l m c, Q (.bin n .pow l (.const m c)) → Q l

theorem down_S : Down (S px) := ⟨fun _ _ _ h => h, fun _ _ _ h => h, fun _ _ _ _ h => h⟩

theorem down_cst : Down (fun e : E ℝ => isConstantExpr e = true) :=
  ⟨fun _ _ _ h => by simpa [isConstantExpr] using h, fun _ _ _ h => by simpa [isConstantExpr] using h,
   fun _ _ _ _ h => by simpa [isConstantExpr] using h⟩

/-- All factors have the property. -/
def AQ (Q : E ℝ → Prop) (m : PMap ℝ) : Prop := ∀ t ∈ m, Q t.1

theorem AQ_cons {Q : E ℝ → Prop} {t : E ℝ × ℝ} {m : PMap ℝ} : AQ Q (t :: m) ↔ Q t.1 ∧ AQ Q m := by simp [AQ]

theorem updExp_all {Q : E ℝ → Prop} {e : E ℝ} (f : ℝ → ℝ) (he : Q e) (m : PMap ℝ) (hm : AQ Q m) :
    AQ Q (updExp realArith e f m) := by
  induction m with
  | nil => exact AQ_cons.2 ⟨he, fun _ h => nomatch h⟩
  | cons t m ih =>
    obtain ⟨k, y⟩ := t
    obtain ⟨h1, h2⟩ := AQ_cons.1 hm
    unfold updExp
    split
    · exact AQ_cons.2 ⟨h1, h2⟩
    · split
      · exact AQ_cons.2 ⟨he, hm⟩
      · exact AQ_cons.2 ⟨h1, ih h2⟩

theorem expandTerm_spec (hi : Inj L) (acc : PMap ℝ) (t : E ℝ × ℝ) (ha : AK px L acc) (ht : K px L t.1 t.2) :
    AK px L (expandTerm realArith acc t).1 ∧ pv px (expandTerm realArith acc t).1 = pv px acc * ev px t.1 ^ t.2 := by
  unfold expandTerm
  split
  · obtain ⟨p1, p2⟩ := ht.pow
    obtain ⟨q1, q2⟩ := updExp_spec (px := px) hi (f := fun y => realArith.add y (realArith.mul _ _)) (fun y => rfl) p1 acc ha
    refine ⟨q1, ?_⟩
    rw [q2]
    simp only [real_mul] at p2 ⊢
    rw [p2]
  · obtain ⟨p1, p2, p3⟩ := ht.mul
    obtain ⟨q1, q2⟩ := updExp_spec (px := px) hi (f := fun y => realArith.add y _) (fun y => rfl) p1 acc ha
    obtain ⟨r1, r2⟩ := updExp_spec (px := px) hi (f := fun y => realArith.add y _) (fun y => rfl) p2 _ q1
    refine ⟨r1, ?_⟩
    rw [r2, q2]
    simp only at p3 ⊢
    rw [p3]; ring
  · obtain ⟨p1, p2, p3⟩ := ht.div
    obtain ⟨q1, q2⟩ := updExp_spec (px := px) hi (f := fun y => realArith.add y _) (fun y => rfl) p1 acc ha
    obtain ⟨r1, r2⟩ := updExp_spec (px := px) hi (f := fun y => realArith.sub y _) (fun y => sub_eq_add_neg y _) p2 _ q1
    refine ⟨r1, ?_⟩
    rw [r2, q2]
    simp only at p3 ⊢
    rw [p3]; ring
  · refine ⟨?_, by rw [pv_append]; simp⟩
    intro s hs
    rcases List.mem_append.1 hs with h | h
    · exact ha s h
    · rw [List.mem_singleton.1 h]; exact ht

theorem expandTerm_all {Q : E ℝ → Prop} (hQ : Down Q) (acc : PMap ℝ) (t : E ℝ × ℝ) (ha : AQ Q acc) (ht : Q t.1) :
    AQ Q (expandTerm realArith acc t).1 := by
  unfold expandTerm
  split
  · exact updExp_all _ (hQ.pow _ _ _ _ ht) acc ha
  · exact updExp_all _ (hQ.mul _ _ _ ht).2 _ (updExp_all _ (hQ.mul _ _ _ ht).1 _ ha)
  · exact updExp_all _ (hQ.div _ _ _ ht).2 _ (updExp_all _ (hQ.div _ _ _ ht).1 _ ha)
  · intro s hs
    rcases List.mem_append.1 hs with h | h
    · exact ha s h
    · rw [List.mem_singleton.1 h]; exact ht

theorem expandOnePass_spec (hi : Inj L) (ts : PMap ℝ) : ∀ acc, AK px L acc → AK px L ts →
    AK px L (expandOnePass realArith acc ts).1 ∧ pv px (expandOnePass realArith acc ts).1 = pv px acc * pv px ts := by
  induction ts with
  | nil => intro acc ha _; exact ⟨ha, by simp [expandOnePass]⟩
  | cons t ts ih =>
    intro acc ha ht
    obtain ⟨h1, h2⟩ := AK_cons.1 ht
    obtain ⟨p1, p2⟩ := expandTerm_spec hi acc t ha h1
    obtain ⟨q1, q2⟩ := ih _ p1 h2
    refine ⟨q1, ?_⟩
    show pv px (expandOnePass realArith (expandTerm realArith acc t).1 ts).1 = _
    rw [q2, p2, pv_cons]; ring

theorem expandOnePass_all {Q : E ℝ → Prop} (hQ : Down Q) (ts : PMap ℝ) : ∀ acc, AQ Q acc → AQ Q ts →
    AQ Q (expandOnePass realArith acc ts).1 := by
  induction ts with
  | nil => intro acc ha _; exact ha
  | cons t ts ih =>
    intro acc ha ht
    obtain ⟨h1, h2⟩ := AQ_cons.1 ht
    exact ih _ (expandTerm_all hQ acc t ha h1) h2

theorem expandPasses_spec (hi : Inj L) (n : Nat) : ∀ m, AK px L m →
    AK px L (expandPasses realArith n m) ∧ pv px (expandPasses realArith n m) = pv px m := by
  induction n with
  | zero => intro m hm; exact ⟨hm, rfl⟩
  | succ n ih =>
    intro m hm
    obtain ⟨p1, p2⟩ := expandOnePass_spec hi m [] AK_nil hm
    rw [pv_nil, one_mul] at p2
    unfold expandPasses
    simp only
    split
    · obtain ⟨q1, q2⟩ := ih _ p1
      exact ⟨q1, q2.trans p2⟩
    · exact ⟨p1, p2⟩

theorem expandPasses_all {Q : E ℝ → Prop} (hQ : Down Q) (n : Nat) : ∀ m, AQ Q m → AQ Q (expandPasses realArith n m) := by
  induction n with
  | zero => intro m hm; exact hm
  | succ n ih =>
    intro m hm
    have p1 := expandOnePass_all hQ m [] (fun _ h => nomatch h) hm
    unfold expandPasses
    simp only
    split
    · exact ih _ p1
    · exact p1

theorem combineConstants_sub (m : PMap ℝ) : ∀ c, ∀ t ∈ (combineConstants realArith m c).1, t ∈ m := by
  induction m with
  | nil => intro c t h; exact h
  | cons s m ih =>
    intro c t h
    unfold combineConstants at h
    split at h
    · rename_i heq; cases heq
    · rename_i heq
      cases heq
      exact List.mem_cons_of_mem _ (ih _ t h)
    · rename_i heq
      cases heq
      rcases List.mem_cons.1 h with h | h
      · rw [h]; exact List.mem_cons_self ..
      · exact List.mem_cons_of_mem _ (ih _ t h)

theorem combineConstants_pv (m : PMap ℝ) : ∀ c, pv px (combineConstants realArith m c).1 * (combineConstants realArith m c).2 = pv px m * c := by
  induction m with
  | nil => intro c; rfl
  | cons s m ih =>
    intro c
    unfold combineConstants
    split
    · rename_i heq; cases heq
    · rename_i heq
      cases heq
      rw [ih, pv_cons, ev_const, real_mul, real_pow]
      ring
    · rename_i heq
      cases heq
      simp only [pv_cons]
      rw [mul_assoc, ih, mul_assoc]

theorem combineConstants_nonneg (m : PMap ℝ) : ∀ c, AQ (S px) m → 0 ≤ c → 0 ≤ (combineConstants realArith m c).2 := by
  induction m with
  | nil => intro c _ hc; exact hc
  | cons s m ih =>
    intro c hm hc
    obtain ⟨h1, h2⟩ := AQ_cons.1 hm
    unfold combineConstants
    split
    · rename_i heq; cases heq
    · rename_i heq
      cases heq
      exact ih _ h2 (mul_nonneg hc (Real.rpow_nonneg h1 _))
    · rename_i heq
      cases heq
      exact ih _ h2 hc

/-- Value of a term. -/
noncomputable def mv (px : Mem → Nat → ℝ) (m : EMap ℝ) : ℝ := pv px m.map * m.coeff

theorem expand_spec (hi : Inj L) (n : Nat) (m : EMap ℝ) (hm : AK px L m.map) :
    AK px L (EMap.expand realArith n m).map ∧ mv px (EMap.expand realArith n m) = mv px m := by
  obtain ⟨p1, p2⟩ := expandPasses_spec hi n m.map hm
  refine ⟨fun t ht => p1 t (combineConstants_sub _ _ t ht), ?_⟩
  show pv px (combineConstants realArith _ _).1 * (combineConstants realArith _ _).2 = _
  rw [combineConstants_pv, p2]; rfl

theorem expand_all {Q : E ℝ → Prop} (hQ : Down Q) (n : Nat) (m : EMap ℝ) (hm : AQ Q m.map) :
    AQ Q (EMap.expand realArith n m).map := fun t ht =>
  expandPasses_all hQ n m.map hm t (combineConstants_sub _ _ t ht)

theorem expand_nonneg (n : Nat) (m : EMap ℝ) (hm : AQ (S px) m.map) (hc : 0 ≤ m.coeff) :
    0 ≤ (EMap.expand realArith n m).coeff := combineConstants_nonneg _ _ (expandPasses_all down_S n m.map hm) hc

/-! ## Emitting products -/

theorem sortBy_perm {β : Type} (less : β → β → Bool) (l : List β) : (sortBy less l).Perm l := List.mergeSort_perm _ _

theorem pv_perm {m m' : PMap ℝ} (h : m.Perm m') : pv px m = pv px m' := (h.map _).prod_eq

/-- A defined tree with this value. -/
def Is (px : Mem → Nat → ℝ) (e : E ℝ) (x : ℝ) : Prop := V px e ∧ F px e ∧ ev px e = x

theorem emitFactor_is (t : E ℝ × ℝ) (h : K px L t.1 t.2) : Is px (emitFactor realArith t) (ev px t.1 ^ t.2) := by
  unfold emitFactor
  split
  · rename_i h1
    rw [real_eq, real_ofInt, Int.cast_one] at h1
    exact ⟨(V_clone _).2 h.v, (F_clone _).2 h.f, by rw [ev_clone, h1, Real.rpow_one]⟩
  · refine ⟨⟨(V_clone _).2 h.v, trivial, ?_⟩, ⟨(F_clone _).2 h.f, trivial, fun _ => ?_⟩, ?_⟩
    · rw [ev_clone, ev_const]; exact h.ok
    · rw [S_clone]; exact h.ex.symm.imp id (fun hx => ⟨rfl, hx⟩)
    · rw [ev_pow, ev_clone, ev_const]

/-- A property that is kept when products, powers and sums are built. -/
structure Up (Q : E ℝ → Prop) : Prop where
  clone : ∀ e, Q e → Q e.clone
  mul : ∀ n l r, Q l → Q r → Q (.bin n .mul l r)
  pow : ∀ n l m c, Q l → Q (.bin n .pow l (.const m c))
  add : ∀ n l r, Q l → Q r → Q (.bin n .add l r)

theorem up_S : Up (S px) :=
  ⟨fun _ h => (S_clone _).2 h, fun _ _ _ h h' => ⟨h, h'⟩, fun _ _ _ _ h => h, fun _ _ _ h h' => ⟨h, h'⟩⟩

theorem up_cst : Up (fun e : E ℝ => isConstantExpr e = true) :=
  ⟨fun _ h => by simpa using h, fun _ _ _ h h' => by simp [isConstantExpr, h, h'],
   fun _ _ _ _ h => by simp [isConstantExpr, h], fun _ _ _ h h' => by simp [isConstantExpr, h, h']⟩

theorem emitFactor_up {Q : E ℝ → Prop} (hQ : Up Q) (t : E ℝ × ℝ) (h : Q t.1) : Q (emitFactor realArith t) := by
  unfold emitFactor
  split
  · exact hQ.clone _ h
  · exact hQ.pow _ _ _ _ (hQ.clone _ h)

/-- A product in progress. -/
def IsP (px : Mem → Nat → ℝ) (u : ℝ) (o : Option (E ℝ)) (x : ℝ) : Prop :=
  match o with
  | none => x = u
  | some e => Is px e x

theorem emitProduct_is (ts : PMap ℝ) : ∀ o x, AK px L ts → IsP px 1 o x →
    IsP px 1 (emitProduct realArith ts o) (x * pv px ts) := by
  induction ts with
  | nil => intro o x _ h; simpa [emitProduct] using h
  | cons t ts ih =>
    intro o x hk h
    obtain ⟨h1, h2⟩ := AK_cons.1 hk
    have hf := emitFactor_is t h1
    rw [pv_cons, ← mul_assoc]
    cases o with
    | none =>
      have h : x = 1 := h
      rw [h, one_mul]
      exact ih _ _ h2 hf
    | some e =>
      obtain ⟨v, f, he⟩ := h
      refine ih _ _ h2 ⟨⟨v, hf.1, trivial⟩, ⟨f, hf.2.1, fun h => nomatch h⟩, ?_⟩
      rw [ev_mul, he, hf.2.2]

theorem emitProduct_up {Q : E ℝ → Prop} (hQ : Up Q) (ts : PMap ℝ) : ∀ o, AQ Q ts → (∀ e, o = some e → Q e) →
    ∀ e, emitProduct realArith ts o = some e → Q e := by
  induction ts with
  | nil => intro o _ h e he; exact h e he
  | cons t ts ih =>
    intro o hk h e he
    obtain ⟨h1, h2⟩ := AQ_cons.1 hk
    have hf := emitFactor_up hQ t h1
    cases o with
    | none => exact ih _ h2 (by intro e he; cases he; exact hf) e he
    | some e0 => exact ih _ h2 (by intro e he; cases he; exact hQ.mul _ _ _ (h e0 rfl) hf) e he

theorem emit_is (m : EMap ℝ) (h : AK px L m.map) : Is px (m.emit realArith) (mv px m) := by
  have hp := sortBy_perm (canonLess realArith) m.map
  have h1 := emitProduct_is (sortBy (canonLess realArith) m.map) none 1 (fun t ht => h t (hp.mem_iff.1 ht)) rfl
  rw [one_mul, pv_perm hp] at h1
  unfold EMap.emit mv
  split
  · rename_i node hn
    rw [hn] at h1
    obtain ⟨v, f, he⟩ := h1
    split
    · rename_i h2
      rw [real_eq, real_ofInt, Int.cast_one] at h2
      exact ⟨v, f, by rw [he, h2, mul_one]⟩
    · exact ⟨⟨v, trivial, trivial⟩, ⟨f, trivial, fun h => nomatch h⟩, by rw [ev_mul, he, ev_const]⟩
  · rename_i hn
    rw [hn] at h1
    have h1 : pv px m.map = 1 := h1
    exact ⟨trivial, trivial, by rw [ev_const, h1, one_mul]⟩

theorem emit_up {Q : E ℝ → Prop} (hQ : Up Q) (m : EMap ℝ) (h : AQ Q m.map) (hc : Q (.const none m.coeff)) :
    Q (m.emit realArith) := by
  have hp := sortBy_perm (canonLess realArith) m.map
  have h1 := emitProduct_up hQ (sortBy (canonLess realArith) m.map) none (fun t ht => h t (hp.mem_iff.1 ht))
    (fun _ h => nomatch h)
  unfold EMap.emit
  split
  · rename_i node hn
    split
    · exact h1 _ hn
    · exact hQ.mul _ _ _ (h1 _ hn) hc
  · exact hc

/-! ## Sums -/

theorem sameTerm_pv (hi : Inj L) : ∀ (a b : PMap ℝ), AK px L a → AK px L b → sameTerm realArith a b = true →
    pv px a = pv px b
  | [], [], _, _, _ => rfl
  | (e, x) :: s, (e', x') :: t, ha, hb, h => by
    unfold sameTerm at h
    simp only [Bool.and_eq_true, decide_eq_true_eq, real_eq] at h
    obtain ⟨a1, a2⟩ := AK_cons.1 ha
    obtain ⟨b1, b2⟩ := AK_cons.1 hb
    rw [pv_cons, pv_cons, sameTerm_pv hi s t a2 b2 h.2.2, ev_of_vn (px := px) hi a1.rep b1.rep h.1, h.2.1]
  | [], _ :: _, _, _, h => by cases h
  | _ :: _, [], _, _, h => by cases h

/-- All terms may be taken apart. -/
def AT (px : Mem → Nat → ℝ) (L : List (E ℝ)) (ts : List (EMap ℝ)) : Prop := ∀ t ∈ ts, AK px L t.map

/-- Value of a sum. -/
noncomputable def tv (px : Mem → Nat → ℝ) (ts : List (EMap ℝ)) : ℝ := (ts.map (mv px)).sum

@[simp] theorem tv_nil : tv px [] = 0 := rfl
@[simp] theorem tv_cons (t : EMap ℝ) (ts : List (EMap ℝ)) : tv px (t :: ts) = mv px t + tv px ts := rfl
theorem AT_cons {t : EMap ℝ} {ts : List (EMap ℝ)} : AT px L (t :: ts) ↔ AK px L t.map ∧ AT px L ts := by simp [AT]
theorem AT_nil : AT px L [] := fun _ h => nomatch h

theorem takeScalars_spec (ts : List (EMap ℝ)) : ∀ s, AT px L ts → AT px L (takeScalars realArith ts s).1 ∧
    tv px (takeScalars realArith ts s).1 + (takeScalars realArith ts s).2 = tv px ts + s := by
  induction ts with
  | nil => intro s h; exact ⟨h, rfl⟩
  | cons t ts ih =>
    intro s h
    obtain ⟨h1, h2⟩ := AT_cons.1 h
    unfold takeScalars
    split
    · rename_i he
      obtain ⟨p1, p2⟩ := ih (realArith.add s t.coeff) h2
      refine ⟨p1, ?_⟩
      rw [p2, tv_cons, real_add]
      have : mv px t = t.coeff := by
        unfold mv
        rw [List.isEmpty_iff.1 he]; simp
      rw [this]; ring
    · obtain ⟨p1, p2⟩ := ih s h2
      refine ⟨AT_cons.2 ⟨h1, p1⟩, ?_⟩
      simp only [tv_cons]
      rw [add_assoc, p2, add_assoc]

/-- A property of terms that does not go away when coefficients are added or set to zero. -/
structure Coef (R : EMap ℝ → Prop) : Prop where
  add : ∀ t u, R t → R u → R { t with coeff := realArith.add t.coeff u.coeff }
  zero : ∀ u, R u → R { u with coeff := realArith.mul u.coeff (realArith.ofInt 0) }

/-- No factor and no coefficient is negative. -/
def NN (px : Mem → Nat → ℝ) (t : EMap ℝ) : Prop := AQ (S px) t.map ∧ 0 ≤ t.coeff

/-- All factors are constant. -/
def CC (t : EMap ℝ) : Prop := AQ (fun e => isConstantExpr e = true) t.map

theorem coef_NN : Coef (NN px) :=
  ⟨fun t u h h' => ⟨h.1, by simp only [real_add]; exact add_nonneg h.2 h'.2⟩, fun u h => ⟨h.1, by simp⟩⟩

theorem coef_CC : Coef CC := ⟨fun _ _ h _ => h, fun _ h => h⟩

theorem takeScalars_sub (ts : List (EMap ℝ)) : ∀ s, ∀ t ∈ (takeScalars realArith ts s).1, t ∈ ts := by
  induction ts with
  | nil => intro s t h; exact h
  | cons t ts ih =>
    intro s u h
    unfold takeScalars at h
    split at h
    · exact List.mem_cons_of_mem _ (ih _ u h)
    · rcases List.mem_cons.1 h with h | h
      · rw [h]; exact List.mem_cons_self ..
      · exact List.mem_cons_of_mem _ (ih _ u h)

theorem takeScalars_nonneg (ts : List (EMap ℝ)) : ∀ s, (∀ t ∈ ts, 0 ≤ t.coeff) → 0 ≤ s → 0 ≤ (takeScalars realArith ts s).2 := by
  induction ts with
  | nil => intro s _ h; exact h
  | cons t ts ih =>
    intro s h hs
    unfold takeScalars
    have h1 := h t (List.mem_cons_self ..)
    have h2 := fun u hu => h u (List.mem_cons_of_mem _ hu)
    split
    · exact ih _ h2 (add_nonneg hs h1)
    · exact ih _ h2 hs

theorem absorb_spec (hi : Inj L) (us : List (EMap ℝ)) : ∀ t, AK px L t.map → AT px L us →
    (absorb realArith t us).1.map = t.map ∧ AT px L (absorb realArith t us).2 ∧
    mv px (absorb realArith t us).1 + tv px (absorb realArith t us).2 = mv px t + tv px us := by
  induction us with
  | nil => intro t ht hu; exact ⟨rfl, hu, rfl⟩
  | cons u us ih =>
    intro t ht hu
    obtain ⟨h1, h2⟩ := AT_cons.1 hu
    unfold absorb
    split
    · rename_i hs
      have hp := sameTerm_pv hi _ _ ht h1 hs
      obtain ⟨p1, p2, p3⟩ := ih { t with coeff := realArith.add t.coeff u.coeff } ht h2
      refine ⟨p1, AT_cons.2 ⟨h1, p2⟩, ?_⟩
      simp only [tv_cons]
      have z : mv px { u with coeff := realArith.mul u.coeff (realArith.ofInt 0) } = 0 := by simp [mv]
      rw [z, zero_add, p3]
      simp only [mv, real_add]
      rw [← hp]; ring
    · obtain ⟨p1, p2, p3⟩ := ih t ht h2
      refine ⟨p1, AT_cons.2 ⟨h1, p2⟩, ?_⟩
      simp only [tv_cons]
      linarith

theorem absorb_all {R : EMap ℝ → Prop} (hR : Coef R) (us : List (EMap ℝ)) : ∀ t, R t → (∀ u ∈ us, R u) →
    R (absorb realArith t us).1 ∧ ∀ u ∈ (absorb realArith t us).2, R u := by
  induction us with
  | nil => intro t ht hu; exact ⟨ht, hu⟩
  | cons u us ih =>
    intro t ht hu
    have h1 := hu u (List.mem_cons_self ..)
    have h2 := fun w hw => hu w (List.mem_cons_of_mem _ hw)
    unfold absorb
    split
    · obtain ⟨p1, p2⟩ := ih _ (hR.add _ _ ht h1) h2
      refine ⟨p1, ?_⟩
      intro w hw
      rcases List.mem_cons.1 hw with h | h
      · rw [h]; exact hR.zero _ h1
      · exact p2 w h
    · obtain ⟨p1, p2⟩ := ih t ht h2
      refine ⟨p1, ?_⟩
      intro w hw
      rcases List.mem_cons.1 hw with h | h
      · rw [h]; exact h1
      · exact p2 w h

theorem mergeTerms_spec (hi : Inj L) (n : Nat) : ∀ ts : List (EMap ℝ), ts.length ≤ n → AT px L ts →
    AT px L (mergeTerms realArith ts) ∧ tv px (mergeTerms realArith ts) = tv px ts := by
  induction n with
  | zero =>
    intro ts hl h
    rw [List.length_eq_zero_iff.1 (Nat.le_zero.1 hl)]
    unfold mergeTerms
    exact ⟨AT_nil, rfl⟩
  | succ n ih =>
    intro ts hl h
    cases ts with
    | nil => unfold mergeTerms; exact ⟨AT_nil, rfl⟩
    | cons t ts =>
      obtain ⟨h1, h2⟩ := AT_cons.1 h
      obtain ⟨p1, p2, p3⟩ := absorb_spec hi ts t h1 h2
      obtain ⟨q1, q2⟩ := ih (absorb realArith t ts).2 (by rw [absorb_length]; simpa using hl) p2
      unfold mergeTerms
      simp only
      split
      · rename_i hz
        rw [real_eq, real_ofInt, Int.cast_zero] at hz
        refine ⟨q1, ?_⟩
        rw [q2, tv_cons, ← p3]
        simp [mv, hz]
      · refine ⟨AT_cons.2 ⟨by rw [p1]; exact h1, q1⟩, ?_⟩
        rw [tv_cons, q2, p3, tv_cons]

theorem mergeTerms_all {R : EMap ℝ → Prop} (hR : Coef R) (n : Nat) : ∀ ts : List (EMap ℝ), ts.length ≤ n →
    (∀ u ∈ ts, R u) → ∀ u ∈ mergeTerms realArith ts, R u := by
  induction n with
  | zero =>
    intro ts hl h
    rw [List.length_eq_zero_iff.1 (Nat.le_zero.1 hl)]
    unfold mergeTerms
    exact fun _ h => nomatch h
  | succ n ih =>
    intro ts hl h
    cases ts with
    | nil => unfold mergeTerms; exact fun _ h => nomatch h
    | cons t ts =>
      obtain ⟨p1, p2⟩ := absorb_all hR ts t (h t (List.mem_cons_self ..)) (fun w hw => h w (List.mem_cons_of_mem _ hw))
      have q := ih (absorb realArith t ts).2 (by rw [absorb_length]; simpa using hl) p2
      unfold mergeTerms
      simp only
      split
      · exact q
      · intro u hu
        rcases List.mem_cons.1 hu with h | h
        · rw [h]; exact p1
        · exact q u h

/-- Value of a sequence. -/
noncomputable def sv (px : Mem → Nat → ℝ) (s : ASeq ℝ) : ℝ := tv px s.terms + s.scalar

theorem aexpand_spec (hi : Inj L) (n : Nat) (s : ASeq ℝ) (h : AT px L s.terms) :
    AT px L (ASeq.expand realArith n s).terms ∧ sv px (ASeq.expand realArith n s) = sv px s := by
  have h0 : AT px L (s.terms.map (EMap.expand realArith n)) ∧ tv px (s.terms.map (EMap.expand realArith n)) = tv px s.terms := by
    obtain ⟨ts, sc⟩ := s
    simp only at h ⊢
    induction ts with
    | nil => exact ⟨AT_nil, rfl⟩
    | cons t ts ih =>
      obtain ⟨h1, h2⟩ := AT_cons.1 h
      obtain ⟨p1, p2⟩ := expand_spec hi n t h1
      obtain ⟨q1, q2⟩ := ih h2
      exact ⟨AT_cons.2 ⟨p1, q1⟩, by rw [List.map_cons, tv_cons, p2, q2, tv_cons]⟩
  obtain ⟨p1, p2⟩ := takeScalars_spec (px := px) (L := L) _ s.scalar h0.1
  obtain ⟨q1, q2⟩ := mergeTerms_spec hi _ _ (Nat.le_refl _) p1
  refine ⟨q1, ?_⟩
  show tv px (mergeTerms realArith _) + (takeScalars realArith _ _).2 = _
  rw [q2, p2, h0.2]; rfl

theorem aexpand_CC (n : Nat) (s : ASeq ℝ) (h : ∀ t ∈ s.terms, CC t) : ∀ t ∈ (ASeq.expand realArith n s).terms, CC t := by
  refine mergeTerms_all coef_CC _ _ (Nat.le_refl _) ?_
  intro t ht
  obtain ⟨u, hu, rfl⟩ := List.mem_map.1 (takeScalars_sub _ _ t ht)
  exact expand_all down_cst n u (h u hu)

theorem aexpand_NN (n : Nat) (s : ASeq ℝ) (h : ∀ t ∈ s.terms, NN px t) (hs : 0 ≤ s.scalar) :
    (∀ t ∈ (ASeq.expand realArith n s).terms, NN px t) ∧ 0 ≤ (ASeq.expand realArith n s).scalar := by
  have h0 : ∀ t ∈ s.terms.map (EMap.expand realArith n), NN px t := by
    intro t ht
    obtain ⟨u, hu, rfl⟩ := List.mem_map.1 ht
    exact ⟨expand_all down_S n u (h u hu).1, expand_nonneg n u (h u hu).1 (h u hu).2⟩
  exact ⟨mergeTerms_all coef_NN _ _ (Nat.le_refl _) (fun t ht => h0 t (takeScalars_sub _ _ t ht)),
    takeScalars_nonneg _ _ (fun t ht => (h0 t ht).2) hs⟩

theorem emitSum_is (ts : List (EMap ℝ)) : ∀ o x, AT px L ts → IsP px 0 o x →
    IsP px 0 (emitSum realArith ts o) (x + tv px ts) := by
  induction ts with
  | nil => intro o x _ h; simpa [emitSum] using h
  | cons t ts ih =>
    intro o x hk h
    obtain ⟨h1, h2⟩ := AT_cons.1 hk
    have hf := emit_is t h1
    rw [tv_cons, ← add_assoc]
    cases o with
    | none =>
      have h : x = 0 := h
      rw [h, zero_add]
      exact ih _ _ h2 hf
    | some e =>
      obtain ⟨v, f, he⟩ := h
      refine ih _ _ h2 ⟨⟨v, hf.1, trivial⟩, ⟨f, hf.2.1, fun h => nomatch h⟩, ?_⟩
      rw [ev_add, he, hf.2.2]

theorem emitSum_up {Q : E ℝ → Prop} (hQ : Up Q) (ts : List (EMap ℝ)) : ∀ o, (∀ t ∈ ts, AQ Q t.map ∧ Q (.const none t.coeff)) →
    (∀ e, o = some e → Q e) → ∀ e, emitSum realArith ts o = some e → Q e := by
  induction ts with
  | nil => intro o _ h e he; exact h e he
  | cons t ts ih =>
    intro o hk h e he
    have h1 := hk t (List.mem_cons_self ..)
    have h2 := fun w hw => hk w (List.mem_cons_of_mem _ hw)
    have hf := emit_up hQ t h1.1 h1.2
    cases o with
    | none => exact ih _ h2 (by intro e he; cases he; exact hf) e he
    | some e0 => exact ih _ h2 (by intro e he; cases he; exact hQ.add _ _ _ (h e0 rfl) hf) e he

theorem aemit_is (s : ASeq ℝ) (h : AT px L s.terms) : Is px (s.emit realArith id) (sv px s) := by
  have h1 := emitSum_is s.terms none 0 h rfl
  rw [zero_add] at h1
  unfold ASeq.emit sv
  split
  · rename_i head hn
    rw [hn] at h1
    obtain ⟨v, f, he⟩ := h1
    split
    · rename_i h2
      rw [real_eq, real_ofInt, Int.cast_zero] at h2
      exact ⟨v, f, by rw [he, h2, add_zero]⟩
    · by_cases hl : realArith.lt s.scalar (realArith.ofInt 0) = true
      · rw [if_pos hl]
        rw [real_lt, real_ofInt, Int.cast_zero] at hl
        refine ⟨⟨v, trivial, trivial⟩, ⟨f, trivial, fun h => nomatch h⟩, ?_⟩
        rw [ev_sub, he, ev_const, real_abs, abs_of_neg hl]; ring
      · rw [if_neg hl]
        rw [real_lt, real_ofInt, Int.cast_zero, not_lt] at hl
        refine ⟨⟨v, trivial, trivial⟩, ⟨f, trivial, fun h => nomatch h⟩, ?_⟩
        rw [ev_add, he, ev_const, real_abs, abs_of_nonneg hl]
  · rename_i hn
    rw [hn] at h1
    have h1 : tv px s.terms = 0 := h1
    exact ⟨trivial, trivial, by rw [ev_const, h1, zero_add]; rfl⟩

theorem aemit_S (s : ASeq ℝ) (h : ∀ t ∈ s.terms, NN px t) (hs : 0 ≤ s.scalar) : S px (s.emit realArith id) := by
  have h1 := emitSum_up (up_S (px := px)) s.terms none (fun t ht => ⟨(h t ht).1, (h t ht).2⟩) (fun _ h => nomatch h)
  unfold ASeq.emit
  split
  · rename_i head hn
    split
    · exact h1 _ hn
    · rw [if_neg (by rw [real_lt, real_ofInt, Int.cast_zero, not_lt]; exact hs)]
      exact ⟨h1 _ hn, by show 0 ≤ |s.scalar|; exact abs_nonneg _⟩
  · exact hs

theorem aemit_cst (keep : ℝ → ℝ) (s : ASeq ℝ) (h : ∀ t ∈ s.terms, CC t) : isConstantExpr (s.emit realArith keep) = true := by
  have h1 := emitSum_up up_cst s.terms none (fun t ht => ⟨h t ht, rfl⟩) (fun _ h => nomatch h)
  unfold ASeq.emit
  split
  · rename_i head hn
    split
    · exact h1 _ hn
    · simp [isConstantExpr, h1 _ hn]
  · rfl

theorem canonicalize_perm (s : ASeq ℝ) : (s.canonicalize realArith).1.terms.Perm s.terms ∧
    (s.canonicalize realArith).1.scalar = s.scalar := by
  unfold ASeq.canonicalize
  split
  · exact ⟨List.Perm.refl _, rfl⟩
  · exact ⟨sortBy_perm _ _, rfl⟩

/-! ## The analysis of a sum -/

theorem sumTerms_spec (e : E ℝ) : ∀ s : Int, Rep L e → V px e → F px e →
    (∀ t ∈ sumTerms s e, Rep L t.1 ∧ V px t.1 ∧ F px t.1) ∧
    ((sumTerms s e).map (fun t => (t.2 : ℝ) * ev px t.1)).sum = s * ev px e := by
  induction e with
  | bin n o l r ih1 ih2 =>
    intro s hr hv hf
    by_cases hadd : o = .add
    · subst hadd
      obtain ⟨p1, p2⟩ := ih1 s hr.1 hv.1 hf.1
      obtain ⟨q1, q2⟩ := ih2 s hr.2.1 hv.2.1 hf.2.1
      simp only [sumTerms, List.map_append, List.sum_append, p2, q2, ev_add]
      refine ⟨fun t ht => (List.mem_append.1 ht).elim (p1 t) (q1 t), by ring⟩
    · by_cases hsub : o = .sub
      · subst hsub
        obtain ⟨p1, p2⟩ := ih1 s hr.1 hv.1 hf.1
        obtain ⟨q1, q2⟩ := ih2 (-s) hr.2.1 hv.2.1 hf.2.1
        simp only [sumTerms, List.map_append, List.sum_append, p2, q2, ev_sub]
        refine ⟨fun t ht => (List.mem_append.1 ht).elim (p1 t) (q1 t), by push_cast; ring⟩
      · have : sumTerms s (.bin n o l r) = [(.bin n o l r, s)] := by cases o <;> first | rfl | exact absurd rfl hadd | exact absurd rfl hsub
        rw [this]
        exact ⟨by intro t ht; rw [List.mem_singleton.1 ht]; exact ⟨hr, hv, hf⟩, by simp⟩
  | _ =>
    intro s hr hv hf
    exact ⟨by intro t ht; rw [List.mem_singleton.1 ht]; exact ⟨hr, hv, hf⟩, by simp [sumTerms]⟩

theorem sumTerms_cst (e : E ℝ) : ∀ s : Int, isConstantExpr e = true → ∀ t ∈ sumTerms s e, isConstantExpr t.1 = true := by
  induction e with
  | bin n o l r ih1 ih2 =>
    intro s hc
    have hc' : isConstantExpr l = true ∧ isConstantExpr r = true := by simpa [isConstantExpr] using hc
    by_cases hadd : o = .add
    · subst hadd
      exact fun t ht => (List.mem_append.1 ht).elim (ih1 s hc'.1 t) (ih2 s hc'.2 t)
    · by_cases hsub : o = .sub
      · subst hsub
        exact fun t ht => (List.mem_append.1 ht).elim (ih1 s hc'.1 t) (ih2 (-s) hc'.2 t)
      · have : sumTerms s (.bin n o l r) = [(.bin n o l r, s)] := by cases o <;> first | rfl | exact absurd rfl hadd | exact absurd rfl hsub
        rw [this]
        intro t ht; rw [List.mem_singleton.1 ht]; exact hc
  | _ =>
    intro s hc t ht
    rw [List.mem_singleton.1 ht]; exact hc

theorem sumTerms_S (e : E ℝ) : S px e → ∀ t ∈ sumTerms 1 e, S px t.1 ∧ t.2 = 1 := by
  induction e with
  | bin n o l r ih1 ih2 =>
    intro hs
    by_cases hadd : o = .add
    · subst hadd
      exact fun t ht => (List.mem_append.1 ht).elim (ih1 hs.1 t) (ih2 hs.2 t)
    · by_cases hsub : o = .sub
      · subst hsub
        exact False.elim hs
      · have : sumTerms 1 (.bin n o l r) = [(.bin n o l r, 1)] := by cases o <;> first | rfl | exact absurd rfl hadd | exact absurd rfl hsub
        rw [this]
        intro t ht; rw [List.mem_singleton.1 ht]; exact ⟨hs, rfl⟩
  | _ =>
    intro hs t ht
    rw [List.mem_singleton.1 ht]; exact ⟨hs, rfl⟩

theorem addTerm_spec (hi : Inj L) (t : E ℝ × Int) (h : Rep L t.1 ∧ V px t.1 ∧ F px t.1) :
    AK px L (addTerm realArith t).map ∧ mv px (addTerm realArith t) = (t.2 : ℝ) * ev px t.1 := by
  have hk : K px L t.1 1 := ⟨h.1, h.2.1, h.2.2, by
    by_cases h0 : ev px t.1 = 0
    · exact Or.inr (Or.inl ⟨h0, one_pos⟩)
    · have := PowOk.ofInt 1 h0; simpa using this, Or.inl ⟨1, by simp⟩⟩
  obtain ⟨p1, p2⟩ := updExp_spec (px := px) hi (f := fun y => realArith.add y (realArith.ofInt 1)) (x := 1)
    (fun y => by simp) hk [] AK_nil
  refine ⟨p1, ?_⟩
  show pv px (updExp realArith t.1 (fun y => realArith.add y (realArith.ofInt 1)) []) *
    realArith.mul (realArith.ofInt 1) (realArith.ofInt t.2) = _
  rw [p2, Real.rpow_one]; simp; ring

theorem analyzeAdditive_keep (hi : Inj L) {e e' : E ℝ} (hr : Rep L e) (h : analyzeAdditive realArith id e = some e') :
    Keep px e e' := by
  unfold analyzeAdditive at h
  simp only at h
  split at h
  swap
  · cases h
  cases h
  obtain ⟨c1, c2⟩ := canonicalize_perm (ASeq.expand realArith (nodes e) ⟨(sumTerms 1 e).map (addTerm realArith), realArith.ofInt 0⟩)
  constructor
  · intro hv hf
    obtain ⟨s1, s2⟩ := sumTerms_spec (px := px) e 1 hr hv hf
    have t1 : AT px L ((sumTerms 1 e).map (addTerm realArith)) := by
      intro t ht
      obtain ⟨u, hu, rfl⟩ := List.mem_map.1 ht
      exact (addTerm_spec hi u (s1 u hu)).1
    have t2 : tv px ((sumTerms 1 e).map (addTerm realArith)) = ev px e := by
      unfold tv
      rw [List.map_map]
      rw [Int.cast_one, one_mul] at s2
      rw [← s2]
      congr 1
      exact List.map_congr_left (fun u hu => (addTerm_spec hi u (s1 u hu)).2)
    obtain ⟨q1, q2⟩ := aexpand_spec (px := px) hi (nodes e) ⟨(sumTerms 1 e).map (addTerm realArith), realArith.ofInt 0⟩ t1
    have q2' : sv px ((ASeq.expand realArith (nodes e) ⟨(sumTerms 1 e).map (addTerm realArith), realArith.ofInt 0⟩).canonicalize realArith).1 = ev px e := by
      rw [← t2]
      unfold sv at q2 ⊢
      rw [c2]
      have : tv px _ = tv px _ := (c1.map (mv px)).sum_eq
      rw [this, q2]; simp
    obtain ⟨v, f, he⟩ := aemit_is (px := px) (L := L) _ (fun t ht => q1 t (c1.mem_iff.1 ht))
    refine ⟨(V_setVn _ _).2 v, by rw [ev_setVn, he, q2'], (F_setVn _ _).2 f, ?_⟩
    intro hs
    rw [S_setVn]
    have hS := sumTerms_S e hs
    obtain ⟨n1, n2⟩ := aexpand_NN (px := px) (nodes e) ⟨(sumTerms 1 e).map (addTerm realArith), realArith.ofInt 0⟩ (by
      intro t ht
      obtain ⟨u, hu, rfl⟩ := List.mem_map.1 ht
      refine ⟨updExp_all (fun y => realArith.add y (realArith.ofInt 1)) (hS u hu).1 [] (fun _ h => nomatch h), ?_⟩
      show 0 ≤ realArith.mul (realArith.ofInt 1) (realArith.ofInt u.2)
      rw [(hS u hu).2]; simp) (by simp)
    exact aemit_S _ (fun t ht => n1 t (c1.mem_iff.1 ht)) (by rw [c2]; exact n2)
  · intro hc
    rw [cst_setVn]
    have hC := sumTerms_cst e 1 hc
    have := aexpand_CC (nodes e) ⟨(sumTerms 1 e).map (addTerm realArith), realArith.ofInt 0⟩ (by
      intro t ht
      obtain ⟨u, hu, rfl⟩ := List.mem_map.1 ht
      exact updExp_all (Q := fun e => isConstantExpr e = true) (fun y => realArith.add y (realArith.ofInt 1)) (hC u hu) []
        (fun _ h => nomatch h))
    exact aemit_cst _ _ (fun t ht => this t (c1.mem_iff.1 ht))

/-! ## The analysis of a product -/

theorem prodTerms_spec (e : E ℝ) : ∀ s : Int, K px L e s →
    (∀ t ∈ prodTerms s e, K px L t.1 t.2) ∧
    ((prodTerms s e).map (fun t => ev px t.1 ^ (t.2 : ℝ))).prod = ev px e ^ (s : ℝ) := by
  induction e with
  | bin n o l r ih1 ih2 =>
    intro s hk
    by_cases hmul : o = .mul
    · subst hmul
      obtain ⟨k1, k2, k3⟩ := hk.mul
      obtain ⟨p1, p2⟩ := ih1 s k1
      obtain ⟨q1, q2⟩ := ih2 s k2
      simp only [prodTerms, List.map_append, List.prod_append, p2, q2]
      exact ⟨fun t ht => (List.mem_append.1 ht).elim (p1 t) (q1 t), k3.symm⟩
    · by_cases hdiv : o = .div
      · subst hdiv
        obtain ⟨k1, k2, k3⟩ := hk.div
        rw [← Int.cast_neg] at k2 k3
        obtain ⟨p1, p2⟩ := ih1 s k1
        obtain ⟨q1, q2⟩ := ih2 (-s) k2
        simp only [prodTerms, List.map_append, List.prod_append, p2, q2]
        exact ⟨fun t ht => (List.mem_append.1 ht).elim (p1 t) (q1 t), k3.symm⟩
      · have : prodTerms s (.bin n o l r) = [(.bin n o l r, s)] := by cases o <;> first | rfl | exact absurd rfl hmul | exact absurd rfl hdiv
        rw [this]
        exact ⟨by intro t ht; rw [List.mem_singleton.1 ht]; exact hk, by simp⟩
  | _ =>
    intro s hk
    exact ⟨by intro t ht; rw [List.mem_singleton.1 ht]; exact hk, by simp [prodTerms]⟩

theorem prodTerms_all {Q : E ℝ → Prop} (hQ : Down Q) (e : E ℝ) : ∀ s : Int, Q e → ∀ t ∈ prodTerms s e, Q t.1 := by
  induction e with
  | bin n o l r ih1 ih2 =>
    intro s hq
    by_cases hmul : o = .mul
    · subst hmul
      exact fun t ht => (List.mem_append.1 ht).elim (ih1 s (hQ.mul _ _ _ hq).1 t) (ih2 s (hQ.mul _ _ _ hq).2 t)
    · by_cases hdiv : o = .div
      · subst hdiv
        exact fun t ht => (List.mem_append.1 ht).elim (ih1 s (hQ.div _ _ _ hq).1 t) (ih2 (-s) (hQ.div _ _ _ hq).2 t)
      · have : prodTerms s (.bin n o l r) = [(.bin n o l r, s)] := by cases o <;> first | rfl | exact absurd rfl hmul | exact absurd rfl hdiv
        rw [this]
        intro t ht; rw [List.mem_singleton.1 ht]; exact hq
  | _ =>
    intro s hq t ht
    rw [List.mem_singleton.1 ht]; exact hq

theorem fold_spec (hi : Inj L) (ts : List (E ℝ × Int)) : ∀ m, AK px L m → (∀ t ∈ ts, K px L t.1 t.2) →
    AK px L (ts.foldl (fun m t => updExp realArith t.1 (fun y => realArith.add y (realArith.ofInt t.2)) m) m) ∧
    pv px (ts.foldl (fun m t => updExp realArith t.1 (fun y => realArith.add y (realArith.ofInt t.2)) m) m) =
      pv px m * (ts.map (fun t => ev px t.1 ^ (t.2 : ℝ))).prod := by
  induction ts with
  | nil => intro m hm _; exact ⟨hm, by simp⟩
  | cons t ts ih =>
    intro m hm h
    obtain ⟨p1, p2⟩ := updExp_spec (px := px) hi (f := fun y => realArith.add y (realArith.ofInt t.2)) (fun y => rfl)
      (h t (List.mem_cons_self ..)) m hm
    obtain ⟨q1, q2⟩ := ih _ p1 (fun u hu => h u (List.mem_cons_of_mem _ hu))
    refine ⟨q1, ?_⟩
    rw [List.foldl_cons, q2, p2, List.map_cons, List.prod_cons, real_ofInt]; ring

theorem fold_all {Q : E ℝ → Prop} (ts : List (E ℝ × Int)) : ∀ m, AQ Q m → (∀ t ∈ ts, Q t.1) →
    AQ Q (ts.foldl (fun m t => updExp realArith t.1 (fun y => realArith.add y (realArith.ofInt t.2)) m) m) := by
  induction ts with
  | nil => intro m hm _; exact hm
  | cons t ts ih =>
    intro m hm h
    exact ih _ (updExp_all _ (h t (List.mem_cons_self ..)) m hm) (fun u hu => h u (List.mem_cons_of_mem _ hu))

theorem analyzeMultiplicative_keep (hi : Inj L) {e e' : E ℝ} (hr : Rep L e)
    (h : analyzeMultiplicative realArith e = some e') : Keep px e e' := by
  unfold analyzeMultiplicative at h
  simp only at h
  split at h
  swap
  · cases h
  cases h
  constructor
  · intro hv hf
    have hk : K px L e ((1 : ℤ) : ℝ) := ⟨hr, hv, hf, by
      by_cases h0 : ev px e = 0
      · exact Or.inr (Or.inl ⟨h0, by simp⟩)
      · exact PowOk.ofInt 1 h0, Or.inl ⟨1, rfl⟩⟩
    obtain ⟨p1, p2⟩ := prodTerms_spec e 1 hk
    obtain ⟨q1, q2⟩ := fold_spec hi (prodTerms 1 e) [] AK_nil p1
    rw [p2, pv_nil, one_mul, Int.cast_one, Real.rpow_one] at q2
    obtain ⟨r1, r2⟩ := expand_spec (px := px) hi (nodes e)
      ⟨(prodTerms 1 e).foldl (fun m t => updExp realArith t.1 (fun y => realArith.add y (realArith.ofInt t.2)) m) [],
        (prodTerms 1 e).map Prod.fst, realArith.ofInt 1⟩ q1
    obtain ⟨v, f, he⟩ := emit_is _ r1
    refine ⟨(V_setVn _ _).2 v, ?_, (F_setVn _ _).2 f, ?_⟩
    · rw [ev_setVn, he, r2]
      unfold mv
      rw [q2]; simp
    · intro hs
      rw [S_setVn]
      have hS := fold_all (prodTerms 1 e) [] (fun _ h => nomatch h) (prodTerms_all (down_S (px := px)) e 1 hs)
      exact emit_up up_S _ (expand_all down_S _ _ hS) (expand_nonneg _ _ hS (by simp))
  · intro hc
    rw [cst_setVn]
    exact emit_up up_cst _ (expand_all down_cst _ _
      (fold_all (prodTerms 1 e) [] (fun _ h => nomatch h) (prodTerms_all down_cst e 1 hc))) rfl

/-! ## The pass -/

theorem algebraic_keep (hi : Inj L) (e : E ℝ) : Rep L e → ∀ p e', algebraic realArith id p e = some e' → Keep px e e' := by
  induction e with
  | load => intro _ p e' h; cases h
  | const => intro _ p e' h; cases h
  | un n o l ih =>
    intro hr p e' h
    unfold algebraic at h
    obtain ⟨x, hx, rfl⟩ := Option.map_eq_some_iff.1 h
    exact Keep.un n n o (ih hr.1 _ _ hx)
  | bin n o l r ih1 ih2 =>
    intro hr p e' h
    unfold algebraic at h
    split at h
    · rename_i x hx
      cases h
      unfold analyzeRoot at hx
      simp only at hx
      split at hx
      · exact analyzeAdditive_keep hi hr hx
      · split at hx
        · exact analyzeMultiplicative_keep hi hr hx
        · cases hx
    · split at h
      · rename_i x hx
        cases h
        exact Keep.bin n n o (ih1 hr.1 _ _ hx) (Keep.refl _)
      · obtain ⟨x, hx, rfl⟩ := Option.map_eq_some_iff.1 h
        exact Keep.bin n n o (Keep.refl _) (ih2 hr.2.1 _ _ hx)
  | tern n o l a b ih1 ih2 ih3 =>
    intro hr p e' h
    unfold algebraic at h
    split at h
    · rename_i x hx
      cases h
      exact Keep.tern n n o (ih1 hr.1 _ _ hx) (Keep.refl _) (Keep.refl _)
    · split at h
      · rename_i x hx
        cases h
        exact Keep.tern n n o (Keep.refl _) (ih2 hr.2.1 _ _ hx) (Keep.refl _)
      · obtain ⟨x, hx, rfl⟩ := Option.map_eq_some_iff.1 h
        exact Keep.tern n n o (Keep.refl _) (Keep.refl _) (ih3 hr.2.2.1 _ _ hx)

/-- `applyAlgebraicOptimizations`, with the constant kept, is right for trees with harmless powers. -/
theorem algebraicOptimizations_keep [DecidableEq ℝ] (e : E ℝ) : Keep px e (applyAlgebraicOptimizations realArith id e).1 := by
  obtain ⟨L, hi, hr, _⟩ := applyValueNumbering_spec e
  unfold applyAlgebraicOptimizations
  split
  · rename_i x hx
    exact (numbering_keep e).trans (algebraic_keep hi _ hr _ _ hx)
  · exact numbering_keep e

end VS.Expr
