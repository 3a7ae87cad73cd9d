import Verif.Expr.Frag

/-! # Expr: comparisons and powers keep the kind of tree -/

namespace VS.Expr

variable {px : Mem → Nat → ℝ} {L : List (E ℝ)}

theorem S_of_vn (hi : Inj L) {x y : E ℝ} (hx : Rep L x) (hy : Rep L y) (h : x.vn = y.vn) : S px x ↔ S px y := by
  rw [← S_clone x, (vn_iff hi hx hy).1 h, S_clone]

theorem F_of_vn (hi : Inj L) {x y : E ℝ} (hx : Rep L x) (hy : Rep L y) (h : x.vn = y.vn) : F px x ↔ F px y := by
  rw [← F_clone x, (vn_iff hi hx hy).1 h, F_clone]

theorem Keep.of_clone {e e' : E ℝ} (h : e'.clone = e.clone) : Keep px e e' := by
  refine ⟨fun v f => ⟨?_, ?_, ?_, ?_⟩, ?_⟩
  · rw [← V_clone, h, V_clone]; exact v
  · rw [← ev_clone, h, ev_clone]
  · rw [← F_clone, h, F_clone]; exact f
  · intro s; rw [← S_clone, h, S_clone]; exact s
  · intro c; rw [← cst_clone, h, cst_clone]; exact c

/-! ## Comparisons -/

/-- Like `Keep`; if only the sign is used (`b`), the value may change. -/
def KeepB (px : Mem → Nat → ℝ) (b : Bool) (e e' : E ℝ) : Prop :=
  (V px e → F px e → V px e' ∧ F px e' ∧ (0 < ev px e' ↔ 0 < ev px e) ∧
    (b = false → ev px e' = ev px e ∧ (S px e → S px e'))) ∧
    (isConstantExpr e = true → isConstantExpr e' = true)

theorem Keep.keepB {b : Bool} {e e' : E ℝ} (h : Keep px e e') : KeepB px b e e' := by
  refine ⟨fun v f => ?_, h.2⟩
  obtain ⟨p1, p2, p3, p4⟩ := h.1 v f
  exact ⟨p1, p3, by rw [p2], fun _ => ⟨p2, p4⟩⟩

theorem KeepB.keep {e e' : E ℝ} (h : KeepB px false e e') : Keep px e e' := by
  refine ⟨fun v f => ?_, h.2⟩
  obtain ⟨p1, p2, _, p4⟩ := h.1 v f
  exact ⟨p1, (p4 rfl).1, p2, (p4 rfl).2⟩

theorem cmpSame_ext {e e' : E ℝ} (h : cmpSame realArith e = some e') : Ext px e e' := by
  unfold cmpSame at h
  split at h
  · split at h
    · cases h
      refine ⟨fun v f he => ⟨trivial, fun s => ?_⟩, fun _ => rfl⟩
      show 0 ≤ (if _ then _ else _ : ℝ)
      split <;> simp
    · cases h
  · cases h

theorem ternSame_ext (hi : Inj L) {e e' : E ℝ} (he : Rep L e) (h : ternSame e = some e') : Ext px e e' := by
  unfold ternSame at h
  split at h
  · rename_i n l a b
    split at h
    · rename_i hvn
      cases h
      obtain ⟨h1, h2, h3, _⟩ := he
      refine ⟨?_, ?_⟩
      · rintro _ ⟨_, f2, f3⟩ _
        rw [F_setVn, S_setVn]
        by_cases hc : 0 < ev px l
        · exact ⟨f2 hc, fun s => s.1 hc⟩
        · exact ⟨(F_of_vn hi h2 h3 hvn).2 (f3 hc), fun s => (S_of_vn hi h2 h3 hvn).2 (s.2 hc)⟩
      · rw [cst_setVn]
        simp only [isConstantExpr, Bool.and_eq_true]
        exact fun h => h.2.1
    · cases h
  · cases h

theorem minMax_ext {e e' : E ℝ} (h : minMax e = some e') : Ext px e e' := by
  unfold minMax at h
  split at h
  · split at h
    · have aux : ∀ (n : Option Nat) (o : Bin) (x y : E ℝ) (e : E ℝ), (o = .min ∨ o = .max) → F px x ∧ F px y →
          ev px (.bin n o x y) = ev px e → F px (.bin n o x y) ∧ (S px e → S px (.bin n o x y)) := by
        rintro n o x y e ho ⟨f1, f2⟩ he
        refine ⟨⟨f1, f2, ?_⟩, ?_⟩
        · rcases ho with rfl | rfl <;> exact fun h => nomatch h
        · intro s
          have := S_nonneg s
          rw [← he] at this
          rcases ho with rfl | rfl <;> exact this
      rename_i n m c x y a b _
      have h' : e' = .bin n .min x y ∨ e' = .bin n .max x y := by
        have aux2 : ∀ (q : Prop) (d : Decidable q), (@ite _ q d (some (E.bin n .min x y)) (some (.bin n .max x y))) = some e' →
            e' = .bin n .min x y ∨ e' = .bin n .max x y := by
          intro q d h
          by_cases hq' : q
          · rw [if_pos hq'] at h; exact Or.inl (Option.some.inj h).symm
          · rw [if_neg hq'] at h; exact Or.inr (Option.some.inj h).symm
        exact aux2 _ _ h
      rcases h' with rfl | rfl <;>
      · refine ⟨fun v f he => aux _ _ _ _ _ (by simp) ⟨f.1.1, f.1.2.1⟩ he, ?_⟩
        simp only [isConstantExpr, Bool.and_eq_true]
        exact fun h => h.1
    · cases h
  · cases h

theorem cmpSub_keepB {b : Bool} {e e' : E ℝ} (h : cmpSub b e = some e') : KeepB px b e e' := by
  have hg := cmpSub_good (px := px) h
  unfold cmpSub at h
  split at h
  · split at h
    · rename_i hb
      cases h
      refine ⟨fun v f => ⟨(hg v).1, ⟨f.2.1, f.1, fun h => nomatch h⟩, (hg v).2.2, fun hf => absurd (hb.symm.trans hf) (by decide)⟩, ?_⟩
      simp only [isConstantExpr, Bool.and_eq_true]
      exact And.symm
    · cases h
  · split at h
    · rename_i hb
      cases h
      exact ⟨fun v f => ⟨(hg v).1, ⟨f.1, f.2.1, fun h => nomatch h⟩, (hg v).2.2, fun hf => absurd (hb.symm.trans hf) (by decide)⟩, id⟩
    · cases h
  · cases h

theorem firstOf_keepB (hi : Inj L) {b : Bool} {e e' : E ℝ} (he : Rep L e)
    (h : firstOf e [cmpSame realArith, ternSame, minMax, cmpSub b] = some e') : KeepB px b e e' := by
  unfold firstOf at h
  split at h
  · cases h; exact (Keep.of (cmpSame_good hi he ‹_›) (cmpSame_ext ‹_›)).keepB
  · unfold firstOf at h
    split at h
    · cases h; exact (Keep.of (ternSame_good hi he ‹_›) (ternSame_ext hi he ‹_›)).keepB
    · unfold firstOf at h
      split at h
      · cases h; exact (Keep.of (minMax_good hi he ‹_›) (minMax_ext ‹_›)).keepB
      · unfold firstOf at h
        split at h
        · cases h; exact cmpSub_keepB ‹_›
        · cases h

theorem KeepB.good {b : Bool} {e e' : E ℝ} (h : KeepB px b e e') (f : F px e) : Good px b e e' := fun v =>
  ⟨(h.1 v f).1, fun hb => ((h.1 v f).2.2.2 hb).1, (h.1 v f).2.2.1⟩

theorem KeepB.bin {l l' r r' : E ℝ} (b : Bool) (n n' : Option Nat) (o : Bin) (h : KeepB px (boolOp o) l l')
    (h' : KeepB px (boolOp o) r r') : KeepB px b (.bin n o l r) (.bin n' o l' r') := by
  by_cases ho : boolOp o = true
  · refine Keep.keepB ⟨?_, by simp only [isConstantExpr, Bool.and_eq_true]; exact And.imp h.2 h'.2⟩
    rintro ⟨v1, v2, v3⟩ ⟨f1, f2, f3⟩
    obtain ⟨p1, p2, _⟩ := h.1 v1 f1
    obtain ⟨q1, q2, _⟩ := h'.1 v2 f2
    obtain ⟨g1, g2, _⟩ := Good.bin false n n' o (h.good f1) (h'.good f2) ⟨v1, v2, v3⟩
    refine ⟨g1, g2 rfl, ⟨p2, q2, ?_⟩, ?_⟩
    · rintro rfl; cases ho
    · intro s
      have := S_nonneg s
      rw [← g2 rfl] at this
      cases o <;> simp only [boolOp, Bool.false_eq_true] at ho <;> exact this
  · have ho : boolOp o = false := by simpa using ho
    rw [ho] at h h'
    exact (Keep.bin n n' o h.keep h'.keep).keepB

theorem comparison_keepB (hi : Inj L) (e : E ℝ) : Rep L e → ∀ b, KeepB px b e (comparison realArith b e).1 := by
  induction e with
  | load n m c =>
    intro he b
    unfold comparison
    split
    · exact firstOf_keepB hi he ‹_›
    · exact (Keep.refl _).keepB
  | const n a =>
    intro he b
    unfold comparison
    split
    · exact firstOf_keepB hi he ‹_›
    · exact (Keep.refl _).keepB
  | un n o l ih =>
    intro he b
    unfold comparison
    split
    · exact firstOf_keepB hi he ‹_›
    · exact (Keep.un n n o (ih he.1 false).keep).keepB
  | bin n o l r ih1 ih2 =>
    intro he b
    unfold comparison
    split
    · exact firstOf_keepB hi he ‹_›
    · exact KeepB.bin b n n o (ih1 he.1 _) (ih2 he.2.1 _)
  | tern n o l x y ih1 ih2 ih3 =>
    intro he b
    unfold comparison
    split
    · exact firstOf_keepB hi he ‹_›
    · cases o with
      | fma k => exact (Keep.tern n n _ (ih1 he.1 false).keep (ih2 he.2.1 false).keep (ih3 he.2.2.1 false).keep).keepB
      | ternary =>
        refine Keep.keepB ⟨?_, ?_⟩
        · rintro ⟨v1, v2, v3⟩ ⟨f1, f2, f3⟩
          obtain ⟨p1, p2, p3, _⟩ := (ih1 he.1 true).1 v1 f1
          have k2 := fun hc => (ih2 he.2.1 false).keep.1 (v2 hc) (f2 hc)
          have k3 := fun hc => (ih3 he.2.2.1 false).keep.1 (v3 hc) (f3 hc)
          have n3 := not_congr p3
          refine ⟨⟨p1, fun hc => (k2 (p3.1 hc)).1, fun hc => (k3 (n3.1 hc)).1⟩, ?_,
            ⟨p2, fun hc => (k2 (p3.1 hc)).2.2.1, fun hc => (k3 (n3.1 hc)).2.2.1⟩,
            fun s => ⟨fun hc => (k2 (p3.1 hc)).2.2.2 (s.1 (p3.1 hc)), fun hc => (k3 (n3.1 hc)).2.2.2 (s.2 (n3.1 hc))⟩⟩
          show ev px (.tern n .ternary (comparison realArith true l).1 _ _) = _
          rw [ev_ternary, ev_ternary]
          by_cases hc : 0 < ev px l
          · rw [if_pos (p3.2 hc), if_pos hc]; exact (k2 hc).2.1
          · rw [if_neg (n3.2 hc), if_neg hc]; exact (k3 hc).2.1
        · simp only [isConstantExpr, Bool.and_eq_true]
          exact And.imp (ih1 he.1 true).2 (And.imp (ih2 he.2.1 false).2 (ih3 he.2.2.1 false).2)

theorem numbering_keep [DecidableEq ℝ] (e : E ℝ) : Keep px e (applyValueNumbering e) := by
  obtain ⟨_, _, _, hc⟩ := applyValueNumbering_spec e
  exact Keep.of_clone hc

/-- `applyComparisonOptimizations` keeps the kind of tree. -/
theorem comparison_keep [DecidableEq ℝ] (e : E ℝ) : Keep px e (applyComparisonOptimizations realArith e).1 := by
  obtain ⟨L, hi, hr, _⟩ := applyValueNumbering_spec e
  exact (numbering_keep e).trans (comparison_keepB hi _ hr false).keep

/-! ## Powers -/

theorem sqrtPow_ext : ∀ e e', sqrtPow realArith e = some e' → Ext px e e' := by
  intro e e' h
  unfold sqrtPow at h
  split at h
  · cases h
    refine ⟨fun v f he => ⟨⟨f.1, trivial, fun _ => Or.inl (f.2 rfl)⟩, fun s => f.2 rfl⟩, ?_⟩
    simp [isConstantExpr]
  · cases h

theorem CI_add {n : Option Nat} {a b : E ℝ} (h1 : CI px a) (h2 : CI px b) : CI px (.bin n .add a b) := by
  obtain ⟨c1, i, hi⟩ := h1
  obtain ⟨c2, j, hj⟩ := h2
  exact ⟨by simp [isConstantExpr, c1, c2], i + j, by rw [ev_add]; push_cast; rw [hi, hj]⟩

theorem mulPow1_ext : ∀ e e', mulPow1 realArith e = some e' → Ext px e e' := by
  intro e e' h
  unfold mulPow1 at h
  split at h
  · split at h
    · cases h
      refine ⟨fun v f he => ⟨⟨f.1.1, ⟨f.1.2.1, trivial, fun h => nomatch h⟩, fun _ => ?_⟩, fun s => s.1⟩, ?_⟩
      · exact (f.1.2.2 rfl).imp id (fun h => CI_add h ⟨rfl, 1, by simp⟩)
      · simp +contextual [isConstantExpr]
    · cases h
  · cases h

theorem mulPow2_ext : ∀ e e', mulPow2 e = some e' → (∀ n m a b m' c d, e = .bin n .mul (.bin m .pow a b) (.bin m' .pow c d) →
    a.vn = c.vn → a = c) → Ext px e e' := by
  intro e e' h hs
  unfold mulPow2 at h
  split at h
  · rename_i n m a b m' c d
    split at h
    · rename_i hvn
      have := hs _ _ _ _ _ _ _ rfl hvn
      subst this
      cases h
      refine ⟨fun v f he => ⟨⟨f.1.1, ⟨f.1.2.1, f.2.1.2.1, fun h => nomatch h⟩, fun _ => ?_⟩, fun s => s.1⟩, ?_⟩
      · rcases f.1.2.2 rfl with h1 | h1
        · exact Or.inl h1
        · exact (f.2.1.2.2 rfl).imp id (fun h => CI_add h1 h)
      · simp +contextual [isConstantExpr]
    · cases h
  · cases h

theorem visit_ext (hi : Inj L) {e e' : E ℝ} {c : Bool}
    (h : applyRules [rule (sqrtPow realArith), rule (mulPow1 realArith), rule mulPow2] e = .ok (e', c))
    (hun : ∀ n o l, e = .un n o l → From L l)
    (hbin : ∀ n o l r, e = .bin n o l r → From L l ∧ From L r ∧ BaseFrom L l ∧ BaseFrom L r) : Keep px e e' := by
  refine Keep.of (visit_spec hi h hun hbin).1 ?_
  -- at most one of the steps changes the node
  simp only [applyRules] at h
  obtain ⟨x, h1, h⟩ := bind_eq_ok h
  obtain ⟨y, h2, h⟩ := bind_eq_ok h
  cases h
  obtain ⟨z, h3, h2⟩ := bind_eq_ok h2
  obtain ⟨w, h4, h2⟩ := bind_eq_ok h2
  cases h2
  obtain ⟨t, h5, h4⟩ := bind_eq_ok h4
  cases h4
  unfold rule at h1 h3 h5
  have triv : ∀ a : E ℝ, Ext px a a := fun a => ⟨fun _ f _ => ⟨f, id⟩, id⟩
  cases hs : sqrtPow realArith e with
  | some e2 =>
    have hs' := hs
    rw [hs] at h1
    cases h1
    unfold sqrtPow at hs
    split at hs
    · cases hs
      simp only [mulPow1] at h3
      cases h3
      simp only [mulPow2] at h5
      cases h5
      exact sqrtPow_ext _ _ hs'
    · cases hs
  | none =>
    rw [hs] at h1
    cases h1
    simp only at h3
    cases hm : mulPow1 realArith e with
    | some e2 =>
      rw [hm] at h3
      cases h3
      have hm' := hm
      unfold mulPow1 at hm
      split at hm
      · split at hm
        · cases hm
          simp only [mulPow2] at h5
          cases h5
          exact mulPow1_ext _ _ hm'
        · cases hm
      · cases hm
    | none =>
      rw [hm] at h3
      cases h3
      simp only at h5
      cases hm2 : mulPow2 e with
      | some e2 =>
        rw [hm2] at h5
        cases h5
        refine mulPow2_ext _ _ hm2 ?_
        rintro n m a b m' c d rfl hv
        obtain ⟨_, _, p3, p4⟩ := hbin _ _ _ _ rfl
        exact From.eq hi p3 p4 hv
      | none =>
        rw [hm2] at h5
        cases h5
        exact triv _

theorem cp_keep (hi : Inj L) (e : E ℝ) : Rep L e → ∀ e' c, cp e = .ok (e', c) →
    Keep px e e' ∧ BaseFrom L e' ∧ e'.vn = e.vn := by
  intro hr e' c h
  refine ⟨?_, (cp_spec (px := px) hi e hr e' c h).2⟩
  induction e generalizing e' c with
  | load n m k => exact visit_ext hi h (by intro _ _ _ h; cases h) (by intro _ _ _ _ h; cases h)
  | const n a => exact visit_ext hi h (by intro _ _ _ h; cases h) (by intro _ _ _ _ h; cases h)
  | un n o l ih =>
    unfold cp postorder at h
    obtain ⟨x, h1, h⟩ := bind_eq_ok h
    obtain ⟨y, h2, h⟩ := bind_eq_ok h
    cases h
    obtain ⟨_, _, p3⟩ := cp_spec (px := px) hi l hr.1 x.1 x.2 h1
    exact (Keep.un n n o (ih hr.1 x.1 x.2 h1)).trans (visit_ext hi h2
      (by intro _ _ _ h; cases h; exact ⟨l, x.2, hr.1, h1, p3⟩) (by intro _ _ _ _ h; cases h))
  | bin n o l r ih1 ih2 =>
    unfold cp postorder at h
    obtain ⟨x, h1, h⟩ := bind_eq_ok h
    obtain ⟨x', h1', h⟩ := bind_eq_ok h
    obtain ⟨y, h2, h⟩ := bind_eq_ok h
    cases h
    rw [postorder_const] at h1 h1'
    obtain ⟨_, p2, p3⟩ := cp_spec (px := px) hi l hr.1 x.1 x.2 h1
    obtain ⟨_, p2', p3'⟩ := cp_spec (px := px) hi r hr.2.1 x'.1 x'.2 h1'
    exact (Keep.bin n n o (ih1 hr.1 x.1 x.2 h1) (ih2 hr.2.1 x'.1 x'.2 h1')).trans (visit_ext hi h2
      (by intro _ _ _ h; cases h)
      (by intro _ _ _ _ h; cases h; exact ⟨⟨l, x.2, hr.1, h1, p3⟩, ⟨r, x'.2, hr.2.1, h1', p3'⟩, p2, p2'⟩))
  | tern n o l a b ih1 ih2 ih3 =>
    unfold cp postorder at h
    obtain ⟨x, h1, h⟩ := bind_eq_ok h
    obtain ⟨x', h1', h⟩ := bind_eq_ok h
    obtain ⟨x'', h1'', h⟩ := bind_eq_ok h
    obtain ⟨y, h2, h⟩ := bind_eq_ok h
    cases h
    exact (Keep.tern n n o (ih1 hr.1 x.1 x.2 h1) (ih2 hr.2.1 x'.1 x'.2 h1') (ih3 hr.2.2.1 x''.1 x''.2 h1'')).trans
      (visit_ext hi h2 (by intro _ _ _ h; cases h) (by intro _ _ _ _ h; cases h))

/-- `combinePowerTerms` keeps the kind of tree. -/
theorem combinePower_keep [DecidableEq ℝ] (e e' : E ℝ) (h : combinePowerTerms realArith e = .ok e') : Keep px e e' := by
  obtain ⟨L, hi, hr, _⟩ := applyValueNumbering_spec e
  unfold combinePowerTerms at h
  obtain ⟨x, h1, h⟩ := bind_eq_ok h
  cases h
  exact (numbering_keep e).trans (cp_keep hi _ hr x.1 x.2 h1).1

end VS.Expr
