import Verif.Expr.LemmasStrength

/-! # Expr: comparisons and powers, on numbered trees -/

namespace VS.Expr

variable {px : Mem → Nat → ℝ} {L : List (E ℝ)}

theorem ev_of_vn (hi : Inj L) {x y : E ℝ} (hx : Rep L x) (hy : Rep L y) (h : x.vn = y.vn) : ev px x = ev px y := by
  rw [← ev_clone x, (vn_iff hi hx hy).1 h, ev_clone]

theorem V_of_vn (hi : Inj L) {x y : E ℝ} (hx : Rep L x) (hy : Rep L y) (h : x.vn = y.vn) : V px x ↔ V px y := by
  rw [← V_clone x, (vn_iff hi hx hy).1 h, V_clone]

/-! ## Comparisons -/

/-- Where `e` is defined, `e'` is defined and has the same value; if only the sign is used (`b`), it has the same sign. -/
def Good (px : Mem → Nat → ℝ) (b : Bool) (e e' : E ℝ) : Prop :=
  V px e → V px e' ∧ (b = false → ev px e' = ev px e) ∧ (0 < ev px e' ↔ 0 < ev px e)

theorem Pres.good {b : Bool} {e e' : E ℝ} (h : Pres px e e') : Good px b e e' := fun hv =>
  ⟨(h hv).1, fun _ => (h hv).2, by rw [(h hv).2]⟩

theorem Good.pres {e e' : E ℝ} (h : Good px false e e') : Pres px e e' := fun hv => ⟨(h hv).1, (h hv).2.1 rfl⟩

theorem cmpSame_good (hi : Inj L) {e e' : E ℝ} (he : Rep L e) (h : cmpSame realArith e = some e') : Pres px e e' := by
  unfold cmpSame at h
  split at h
  · rename_i n c l r
    split at h
    · rename_i hvn
      cases h
      obtain ⟨h1, h2, _⟩ := he
      have := ev_of_vn (px := px) hi h1 h2 hvn
      intro _
      refine ⟨trivial, ?_⟩
      rw [ev_cmp, ev_const, this]
      cases c <;> simp [cmpProp]
    · cases h
  · cases h

theorem ternSame_good (hi : Inj L) {e e' : E ℝ} (he : Rep L e) (h : ternSame e = some e') : Pres px e e' := by
  unfold ternSame at h
  split at h
  · rename_i n l a b
    split at h
    · rename_i hvn
      cases h
      obtain ⟨h1, h2, h3, _⟩ := he
      have hev := ev_of_vn (px := px) hi h2 h3 hvn
      have hV := V_of_vn (px := px) hi h2 h3 hvn
      rintro ⟨v1, v2, v3⟩
      rw [V_setVn, ev_setVn, ev_ternary, ← hev]
      by_cases hc : 0 < ev px l
      · exact ⟨v2 hc, by simp⟩
      · exact ⟨hV.2 (v3 hc), by simp⟩
    · cases h
  · cases h

theorem ev_min (n : Option Nat) (x y : E ℝ) : ev px (.bin n .min x y) = if ev px y < ev px x then ev px y else ev px x := by
  show realArith.min (ev px x) (ev px y) = _
  simp [Arith.min, realArith]

theorem ev_max (n : Option Nat) (x y : E ℝ) : ev px (.bin n .max x y) = if ev px x < ev px y then ev px y else ev px x := by
  show realArith.max (ev px x) (ev px y) = _
  simp [Arith.max, realArith]

theorem minMax_good (hi : Inj L) {e e' : E ℝ} (he : Rep L e) (h : minMax e = some e') : Pres px e e' := by
  unfold minMax at h
  split at h
  · rename_i n m c x y a b
    obtain ⟨⟨hx, hy, _⟩, ha, hb, _⟩ := he
    split at h
    · rename_i hc
      obtain ⟨hs, hcmp⟩ := hc
      have ex : x.vn = a.vn → ev px x = ev px a := ev_of_vn hi hx ha
      have ey : y.vn = b.vn → ev px y = ev px b := ev_of_vn hi hy hb
      have ex' : x.vn = b.vn → ev px x = ev px b := ev_of_vn hi hx hb
      have ey' : y.vn = a.vn → ev px y = ev px a := ev_of_vn hi hy ha
      rintro ⟨⟨v1, v2, _⟩, _, _⟩
      -- the four cases
      have hp := ev_cmp_pos (px := px) m c x y
      have hxa : x.vn = a.vn → ev px x = ev px a ∧ ev px y = ev px b := by
        intro h1
        rcases hs with ⟨h2, h3⟩ | ⟨h2, h3⟩
        · exact ⟨ex h2, ey h3⟩
        · refine ⟨ex h1, ?_⟩
          -- all four are equal
          have : y.vn = b.vn := by rw [h3, ← h1, h2]
          exact ey this
      have hxb : x.vn ≠ a.vn → ev px x = ev px b ∧ ev px y = ev px a := by
        intro h1
        rcases hs with ⟨h2, h3⟩ | ⟨h2, h3⟩
        · exact absurd h2 h1
        · exact ⟨ex' h2, ey' h3⟩
      rcases hcmp with rfl | rfl | rfl | rfl
      all_goals
        by_cases h1 : x.vn = a.vn
        · obtain ⟨q1, q2⟩ := hxa h1
          simp [h1] at h
          cases h
          refine ⟨⟨v1, v2, trivial⟩, ?_⟩
          rw [ev_ternary]
          simp only [hp, cmpProp]
          simp only [ev_min, ev_max]
          rw [← q1, ← q2]
          try (split_ifs <;> first | rfl | linarith)
        · obtain ⟨q1, q2⟩ := hxb h1
          simp [h1] at h
          cases h
          refine ⟨⟨v1, v2, trivial⟩, ?_⟩
          rw [ev_ternary]
          simp only [hp, cmpProp]
          simp only [ev_min, ev_max]
          rw [← q1, ← q2]
          try (split_ifs <;> first | rfl | linarith)
    · cases h
  · cases h

theorem cmpSub_good {b : Bool} {e e' : E ℝ} (h : cmpSub b e = some e') : Good px b e e' := by
  unfold cmpSub at h
  split at h
  · split at h
    · rename_i hb
      cases h
      rintro ⟨v1, v2, _⟩
      exact ⟨⟨v2, v1, trivial⟩, (fun hf => absurd (hb.symm.trans hf) (by decide)), by rw [ev_cmp_pos, ev_sub]; simp [cmpProp]⟩
    · cases h
  · split at h
    · rename_i hb
      cases h
      rintro ⟨v1, v2, _⟩
      exact ⟨⟨v1, v2, trivial⟩, (fun hf => absurd (hb.symm.trans hf) (by decide)), by rw [ev_cmp_pos, ev_sub]; simp [cmpProp]⟩
    · cases h
  · cases h

theorem firstOf_good (hi : Inj L) {b : Bool} {e e' : E ℝ} (he : Rep L e)
    (h : firstOf e [cmpSame realArith, ternSame, minMax, cmpSub b] = some e') : Good px b e e' := by
  unfold firstOf at h
  split at h
  · cases h; exact (cmpSame_good hi he ‹_›).good
  · unfold firstOf at h
    split at h
    · cases h; exact (ternSame_good hi he ‹_›).good
    · unfold firstOf at h
      split at h
      · cases h; exact (minMax_good hi he ‹_›).good
      · unfold firstOf at h
        split at h
        · cases h; exact cmpSub_good ‹_›
        · cases h

theorem Good.un {l l' : E ℝ} (b : Bool) (n n' : Option Nat) (o : Un) (h : Good px false l l') :
    Good px b (.un n o l) (.un n' o l') := (Pres.un n n' o h.pres).good

/-- Operators that look at the sign only. -/
theorem Good.bin {l l' r r' : E ℝ} (b : Bool) (n n' : Option Nat) (o : Bin) (h : Good px (boolOp o) l l')
    (h' : Good px (boolOp o) r r') : Good px b (.bin n o l r) (.bin n' o l' r') := by
  by_cases ho : boolOp o = true
  · rintro ⟨v1, v2, v3⟩
    obtain ⟨p1, _, p3⟩ := h v1
    obtain ⟨q1, _, q3⟩ := h' v2
    have e1 : realArith.toBool (ev px l') = realArith.toBool (ev px l) := by
      simp only [Arith.toBool, realArith, Int.cast_zero]; exact decide_eq_decide.2 p3
    have e2 : realArith.toBool (ev px r') = realArith.toBool (ev px r) := by
      simp only [Arith.toBool, realArith, Int.cast_zero]; exact decide_eq_decide.2 q3
    have hev : ev px (.bin n' o l' r') = ev px (.bin n o l r) := by
      show realArith.bin o (ev px l') (ev px r') = realArith.bin o (ev px l) (ev px r)
      cases o <;> simp only [boolOp, Bool.false_eq_true] at ho <;> simp only [Arith.bin, e1, e2]
    refine ⟨⟨p1, q1, ?_⟩, fun _ => hev, by rw [hev]⟩
    cases o <;> simp only [boolOp, Bool.false_eq_true] at ho <;> trivial
  · have ho : boolOp o = false := by simpa using ho
    rw [ho] at h h'
    exact (Pres.bin n n' o h.pres h'.pres).good

theorem comparison_good (hi : Inj L) (e : E ℝ) : Rep L e → ∀ b, Good px b e (comparison realArith b e).1 := by
  induction e with
  | load n m c =>
    intro he b
    unfold comparison
    split
    · exact firstOf_good hi he ‹_›
    · exact (Pres.refl _).good
  | const n a =>
    intro he b
    unfold comparison
    split
    · exact firstOf_good hi he ‹_›
    · exact (Pres.refl _).good
  | un n o l ih =>
    intro he b
    unfold comparison
    split
    · exact firstOf_good hi he ‹_›
    · exact Good.un b n n o (ih he.1 false)
  | bin n o l r ih1 ih2 =>
    intro he b
    unfold comparison
    split
    · exact firstOf_good hi he ‹_›
    · exact Good.bin b n n o (ih1 he.1 _) (ih2 he.2.1 _)
  | tern n o l x y ih1 ih2 ih3 =>
    intro he b
    unfold comparison
    split
    · exact firstOf_good hi he ‹_›
    · cases o with
      | fma k => exact (Pres.tern n n _ (ih1 he.1 false).pres (ih2 he.2.1 false).pres (ih3 he.2.2.1 false).pres).good
      | ternary =>
        refine Pres.good ?_
        rintro ⟨v1, v2, v3⟩
        obtain ⟨p1, _, p3⟩ := ih1 he.1 true v1
        refine ⟨⟨p1, fun hc => ((ih2 he.2.1 false).pres (v2 (p3.1 hc))).1,
          fun hc => ((ih3 he.2.2.1 false).pres (v3 (fun h => hc (p3.2 h)))).1⟩, ?_⟩
        show ev px (.tern n .ternary (comparison realArith true l).1 _ _) = _
        rw [ev_ternary, ev_ternary]
        by_cases hc : 0 < ev px l
        · rw [if_pos (p3.2 hc), if_pos hc]; exact ((ih2 he.2.1 false).pres (v2 hc)).2
        · rw [if_neg (fun h => hc (p3.1 h)), if_neg hc]; exact ((ih3 he.2.2.1 false).pres (v3 hc)).2

/-- `applyComparisonOptimizations` is right for real numbers. -/
theorem comparison_pres [DecidableEq ℝ] (e : E ℝ) : Pres px e (applyComparisonOptimizations realArith e).1 := by
  obtain ⟨L, hi, hr, _⟩ := applyValueNumbering_spec e
  exact (numbering_pres e).trans (comparison_good hi _ hr false).pres

/-! ## Powers -/

theorem rep_eq (hi : Inj L) {x : E ℝ} : ∀ {y : E ℝ}, Rep L x → Rep L y → x.vn = y.vn → x = y := by
  induction x with
  | load n m c =>
    intro y hx hy h
    have hc := (vn_iff hi hx hy).1 h
    cases y <;> simp only [E.clone] at hc <;> cases hc
    simp only [E.vn] at h
    rw [h]
  | const n a =>
    intro y hx hy h
    have hc := (vn_iff hi hx hy).1 h
    cases y <;> simp only [E.clone] at hc <;> cases hc
    simp only [E.vn] at h
    rw [h]
  | un n o l ih =>
    intro y hx hy h
    have hc := (vn_iff hi hx hy).1 h
    cases y with
    | un n' o' l' =>
      simp only [E.clone, E.un.injEq, true_and] at hc
      simp only [E.vn] at h
      rw [h, hc.1, ih hx.1 hy.1 ((vn_iff hi hx.1 hy.1).2 hc.2)]
    | _ => simp [E.clone] at hc
  | bin n o l r ih1 ih2 =>
    intro y hx hy h
    have hc := (vn_iff hi hx hy).1 h
    cases y with
    | bin n' o' l' r' =>
      simp only [E.clone, E.bin.injEq, true_and] at hc
      simp only [E.vn] at h
      rw [h, hc.1, ih1 hx.1 hy.1 ((vn_iff hi hx.1 hy.1).2 hc.2.1), ih2 hx.2.1 hy.2.1 ((vn_iff hi hx.2.1 hy.2.1).2 hc.2.2)]
    | _ => simp [E.clone] at hc
  | tern n o l a b ih1 ih2 ih3 =>
    intro y hx hy h
    have hc := (vn_iff hi hx hy).1 h
    cases y with
    | tern n' o' l' a' b' =>
      simp only [E.clone, E.tern.injEq, true_and] at hc
      simp only [E.vn] at h
      rw [h, hc.1, ih1 hx.1 hy.1 ((vn_iff hi hx.1 hy.1).2 hc.2.1), ih2 hx.2.1 hy.2.1 ((vn_iff hi hx.2.1 hy.2.1).2 hc.2.2.1),
        ih3 hx.2.2.1 hy.2.2.1 ((vn_iff hi hx.2.2.1 hy.2.2.1).2 hc.2.2.2)]
    | _ => simp [E.clone] at hc

/-- The traversal of `combinePowerTerms`. -/
noncomputable def cp (e : E ℝ) : Res (E ℝ × Bool) :=
  postorder (fun _ => applyRules [rule (sqrtPow realArith), rule (mulPow1 realArith), rule mulPow2]) false e

/-- `t` is what became of a numbered tree. -/
def From (L : List (E ℝ)) (t : E ℝ) : Prop := ∃ s c, Rep L s ∧ cp s = .ok (t, c) ∧ t.vn = s.vn

theorem From.eq (hi : Inj L) {x y : E ℝ} (hx : From L x) (hy : From L y) (h : x.vn = y.vn) : x = y := by
  obtain ⟨s, c, h1, h2, h3⟩ := hx
  obtain ⟨s', c', h1', h2', h3'⟩ := hy
  have := rep_eq hi h1 h1' (by rw [← h3, ← h3', h])
  subst this
  rw [h2] at h2'
  cases h2'
  rfl

/-- The base of a power, if there is one, is what became of a numbered tree. -/
def BaseFrom (L : List (E ℝ)) : E ℝ → Prop
  | .bin _ .pow l _ => From L l
  | _ => True

theorem sqrtPow_sound : ∀ e e', sqrtPow realArith e = some e' → Pres px e e' := by
  intro e e' h
  unfold sqrtPow at h
  split at h
  · rename_i n l
    cases h
    rintro ⟨h1, h2⟩
    refine ⟨⟨h1, trivial, ?_⟩, ?_⟩
    · rcases lt_or_eq_of_le (show 0 ≤ ev px l from h2) with h | h
      · exact Or.inl h
      · exact Or.inr (Or.inl ⟨h.symm, by simp⟩)
    · rw [ev_pow, ev_sqrt, ev_const, real_half, Real.sqrt_eq_rpow]
  · cases h

theorem mulPow1_sound (hi : Inj L) {n : Option Nat} {l r e' : E ℝ} (hb : BaseFrom L l) (hr : From L r)
    (h : mulPow1 realArith (.bin n .mul l r) = some e') : Pres px (.bin n .mul l r) e' ∧ BaseFrom L e' ∧ e'.vn = n := by
  unfold mulPow1 at h
  split at h
  · rename_i n' m a b r' heq
    cases heq
    split at h
    · rename_i hvn
      cases h
      have : a = r := From.eq hi hb hr hvn
      subst this
      refine ⟨?_, hb, rfl⟩
      rintro ⟨⟨h1, h2, h3⟩, h4, h5⟩
      by_cases ha : ev px a = 0
      · have h3 : PowOk (ev px a) (ev px b) := h3
        rw [ha] at h3
        have := h3.zero
        refine ⟨⟨h1, ⟨h2, trivial, trivial⟩, Or.inr (Or.inl ⟨ha, ?_⟩)⟩, ?_⟩
        · rw [ev_add, ev_const, real_ofInt]; push_cast; linarith
        · rw [ev_pow, ev_mul, ev_add, ev_const, ha, zero_pow_pos, mul_zero]
          rw [real_ofInt]; push_cast; linarith
      · obtain ⟨p1, p2⟩ := PowOk.add h3 (PowOk.ofInt 1 ha)
        refine ⟨⟨h1, ⟨h2, trivial, trivial⟩, p1⟩, ?_⟩
        rw [ev_pow, ev_mul, ev_add, ev_const, ev_pow, real_ofInt, p2]
        simp
    · cases h
  · cases h

theorem mulPow2_sound (hi : Inj L) {n : Option Nat} {l r e' : E ℝ} (hb : BaseFrom L l) (hr : BaseFrom L r)
    (h : mulPow2 (.bin n .mul l r) = some e') : Pres px (.bin n .mul l r) e' ∧ BaseFrom L e' ∧ e'.vn = n := by
  unfold mulPow2 at h
  split at h
  · rename_i n' m a b m' c d heq
    cases heq
    split at h
    · rename_i hvn
      cases h
      have : a = c := From.eq hi hb hr hvn
      subst this
      refine ⟨?_, hb, rfl⟩
      rintro ⟨⟨h1, h2, h3⟩, ⟨_, h4, h5⟩, h6⟩
      obtain ⟨p1, p2⟩ := PowOk.add h3 h5
      refine ⟨⟨h1, ⟨h2, h4, trivial⟩, p1⟩, ?_⟩
      rw [ev_pow, ev_mul, ev_add, ev_pow, ev_pow, p2]
    · cases h
  · cases h

/-- What the visitor does with a node whose operands have been visited. -/
theorem visit_spec (hi : Inj L) {e e' : E ℝ} {c : Bool}
    (h : applyRules [rule (sqrtPow realArith), rule (mulPow1 realArith), rule mulPow2] e = .ok (e', c))
    (hun : ∀ n o l, e = .un n o l → From L l)
    (hbin : ∀ n o l r, e = .bin n o l r → From L l ∧ From L r ∧ BaseFrom L l ∧ BaseFrom L r) :
    Pres px e e' ∧ BaseFrom L e' ∧ e'.vn = e.vn := by
  simp only [applyRules] at h
  obtain ⟨x, h1, h⟩ := bind_eq_ok h
  obtain ⟨y, h2, h⟩ := bind_eq_ok h
  cases h
  obtain ⟨z, h3, h2⟩ := bind_eq_ok h2
  obtain ⟨w, h4, h2⟩ := bind_eq_ok h2
  cases h2
  obtain ⟨t, h5, h4⟩ := bind_eq_ok h4
  cases h4
  unfold rule at h1 h3 h5
  -- what the first step did
  have s1 : (x.1 = e ∧ ∀ n l, e ≠ .un n .sqrt l) ∨ (∃ n l, e = .un n .sqrt l ∧ x.1 = .bin n .pow l (.const none realArith.half)) := by
    cases e with
    | un n o l =>
      cases o <;> simp only [sqrtPow] at h1 <;> cases h1 <;> first
        | (right; exact ⟨_, _, rfl, rfl⟩)
        | (left; exact ⟨rfl, by intro _ _ h; cases h⟩)
    | _ =>
      simp only [sqrtPow] at h1
      cases h1
      left
      exact ⟨rfl, by intro _ _ h; cases h⟩
  rcases s1 with ⟨e1, hns⟩ | ⟨n, l, rfl, e1⟩
  · rw [e1] at h3
    cases hm : mulPow1 realArith e with
    | some e2 =>
      rw [hm] at h3
      cases h3
      have hmul : ∃ n l r, e = .bin n .mul l r := by
        unfold mulPow1 at hm
        split at hm
        · exact ⟨_, _, _, rfl⟩
        · cases hm
      obtain ⟨n, l, r, rfl⟩ := hmul
      obtain ⟨_, p2, p3, _⟩ := hbin _ _ _ _ rfl
      have hs := mulPow1_sound (px := px) hi p3 p2 hm
      have : mulPow2 e2 = none := by
        unfold mulPow1 at hm
        split at hm
        · split at hm
          · cases hm; rfl
          · cases hm
        · cases hm
      simp only [this] at h5
      cases h5
      exact hs
    | none =>
      rw [hm] at h3
      cases h3
      simp only at h5
      cases hm2 : mulPow2 e with
      | some e2 =>
        rw [hm2] at h5
        cases h5
        have hmul : ∃ n l r, e = .bin n .mul l r := by
          unfold mulPow2 at hm2
          split at hm2
          · exact ⟨_, _, _, rfl⟩
          · cases hm2
        obtain ⟨n, l, r, rfl⟩ := hmul
        obtain ⟨_, _, p3, p4⟩ := hbin _ _ _ _ rfl
        exact mulPow2_sound (px := px) hi p3 p4 hm2
      | none =>
        rw [hm2] at h5
        cases h5
        refine ⟨Pres.refl _, ?_, rfl⟩
        cases e with
        | bin n o l r =>
          cases o <;> first | trivial | exact (hbin _ _ _ _ rfl).1
        | _ => trivial
  · rw [e1] at h3
    simp only [mulPow1] at h3
    cases h3
    simp only [mulPow2] at h5
    cases h5
    exact ⟨sqrtPow_sound _ _ rfl, hun _ _ _ rfl, rfl⟩

theorem postorder_const (v : Rule ℝ) (e : E ℝ) : ∀ p, postorder (fun _ => v) p e = postorder (fun _ => v) false e := by
  induction e with
  | load => intro p; rfl
  | const => intro p; rfl
  | un n o l ih => intro p; simp only [postorder]
  | bin n o l r ih1 ih2 => intro p; simp only [postorder]
  | tern n o l a b ih1 ih2 ih3 => intro p; simp only [postorder]

theorem cp_spec (hi : Inj L) (e : E ℝ) : Rep L e → ∀ e' c, cp e = .ok (e', c) →
    Pres px e e' ∧ BaseFrom L e' ∧ e'.vn = e.vn := by
  induction e with
  | load n m k =>
    intro _ e' c h
    exact visit_spec hi h (by intro _ _ _ h; cases h) (by intro _ _ _ _ h; cases h)
  | const n a =>
    intro _ e' c h
    exact visit_spec hi h (by intro _ _ _ h; cases h) (by intro _ _ _ _ h; cases h)
  | un n o l ih =>
    intro hr e' c h
    unfold cp postorder at h
    obtain ⟨x, h1, h⟩ := bind_eq_ok h
    obtain ⟨y, h2, h⟩ := bind_eq_ok h
    cases h
    obtain ⟨p1, p2, p3⟩ := ih hr.1 x.1 x.2 h1
    obtain ⟨q1, q2, q3⟩ := visit_spec (px := px) hi h2
      (by intro _ _ _ h; cases h; exact ⟨l, x.2, hr.1, h1, p3⟩) (by intro _ _ _ _ h; cases h)
    exact ⟨(Pres.un n n o p1).trans q1, q2, q3⟩
  | bin n o l r ih1 ih2 =>
    intro hr e' c h
    unfold cp postorder at h
    obtain ⟨x, h1, h⟩ := bind_eq_ok h
    obtain ⟨x', h1', h⟩ := bind_eq_ok h
    obtain ⟨y, h2, h⟩ := bind_eq_ok h
    cases h
    rw [postorder_const] at h1 h1'
    obtain ⟨p1, p2, p3⟩ := ih1 hr.1 x.1 x.2 h1
    obtain ⟨p1', p2', p3'⟩ := ih2 hr.2.1 x'.1 x'.2 h1'
    obtain ⟨q1, q2, q3⟩ := visit_spec (px := px) hi h2
      (by intro _ _ _ h; cases h)
      (by intro _ _ _ _ h; cases h; exact ⟨⟨l, x.2, hr.1, h1, p3⟩, ⟨r, x'.2, hr.2.1, h1', p3'⟩, p2, p2'⟩)
    exact ⟨(Pres.bin n n o p1 p1').trans q1, q2, q3⟩
  | tern n o l a b ih1 ih2 ih3 =>
    intro hr e' c h
    unfold cp postorder at h
    obtain ⟨x, h1, h⟩ := bind_eq_ok h
    obtain ⟨x', h1', h⟩ := bind_eq_ok h
    obtain ⟨x'', h1'', h⟩ := bind_eq_ok h
    obtain ⟨y, h2, h⟩ := bind_eq_ok h
    cases h
    obtain ⟨p1, p2, p3⟩ := ih1 hr.1 x.1 x.2 h1
    obtain ⟨p1', p2', p3'⟩ := ih2 hr.2.1 x'.1 x'.2 h1'
    obtain ⟨p1'', p2'', p3''⟩ := ih3 hr.2.2.1 x''.1 x''.2 h1''
    obtain ⟨q1, q2, q3⟩ := visit_spec (px := px) hi h2
      (by intro _ _ _ h; cases h) (by intro _ _ _ _ h; cases h)
    exact ⟨(Pres.tern n n o p1 p1' p1'').trans q1, q2, q3⟩

/-- `combinePowerTerms` is right for real numbers. -/
theorem combinePower_pres [DecidableEq ℝ] (e e' : E ℝ) (h : combinePowerTerms realArith e = .ok e') : Pres px e e' := by
  obtain ⟨L, hi, hr, _⟩ := applyValueNumbering_spec e
  unfold combinePowerTerms at h
  obtain ⟨x, h1, h⟩ := bind_eq_ok h
  cases h
  exact (numbering_pres e).trans (cp_spec hi _ hr x.1 x.2 h1).1

end VS.Expr
