import Verif.Expr.LemmasNumbered

/-! # Expr: trees with harmless powers

The passes rewrite `(x * y) ^ c` to `x ^ c * y ^ c`. That is right if the exponent is an integer or if the factors are not
negative. -/

namespace VS.Expr

/-- Not negative, and still seen to be so factor by factor. -/
def S (px : Mem → Nat → ℝ) : E ℝ → Prop
  | .load _ m c => 0 ≤ px m c
  | .const _ a => 0 ≤ a
  | .un _ .exp _ => False
  | .un _ .log _ => False
  | .un n o l => 0 ≤ ev px (.un n o l)
  | .bin _ .add l r => S px l ∧ S px r
  | .bin _ .sub _ _ => False
  | .bin _ .mul l r => S px l ∧ S px r
  | .bin _ .div l r => S px l ∧ S px r
  | .bin _ .pow l _ => S px l
  | .bin n o l r => 0 ≤ ev px (.bin n o l r)
  | .tern _ .ternary l a b => (0 < ev px l → S px a) ∧ (¬ 0 < ev px l → S px b)
  | .tern _ (.fma _) _ _ _ => False

/-- A constant expression with an integer value. -/
def CI (px : Mem → Nat → ℝ) (e : E ℝ) : Prop := isConstantExpr e = true ∧ ∃ n : ℤ, (n : ℝ) = ev px e

/-- Every square root has an operand of the kind `S`, every power a base of the kind `S` or an exponent that is an integer
constant. Of the branches of `?` only the one that is taken matters. -/
def F (px : Mem → Nat → ℝ) : E ℝ → Prop
  | .load .. => True
  | .const .. => True
  | .un _ o l => F px l ∧ (o = .sqrt → S px l)
  | .bin _ o l r => F px l ∧ F px r ∧ (o = .pow → S px l ∨ CI px r)
  | .tern _ (.fma _) l a b => F px l ∧ F px a ∧ F px b
  | .tern _ .ternary l a b => F px l ∧ (0 < ev px l → F px a) ∧ (¬ 0 < ev px l → F px b)

variable {px : Mem → Nat → ℝ}

theorem S_nonneg : ∀ {e : E ℝ}, S px e → 0 ≤ ev px e := by
  intro e
  induction e with
  | load n m c => exact id
  | const n a => exact id
  | un n o l ih => cases o <;> simp only [S] <;> first | exact id | exact False.elim
  | bin n o l r ih1 ih2 =>
    cases o <;> simp only [S] <;> first
      | exact id
      | exact False.elim
      | (rintro ⟨h1, h2⟩; exact add_nonneg (ih1 h1) (ih2 h2))
      | (rintro ⟨h1, h2⟩; exact mul_nonneg (ih1 h1) (ih2 h2))
      | (rintro ⟨h1, h2⟩; exact div_nonneg (ih1 h1) (ih2 h2))
      | (intro h1; exact Real.rpow_nonneg (ih1 h1) _)
  | tern n o l a b ih1 ih2 ih3 =>
    cases o with
    | fma k => exact False.elim
    | ternary =>
      rintro ⟨h1, h2⟩
      rw [ev_ternary]
      split
      · exact ih2 (h1 ‹_›)
      · exact ih3 (h2 ‹_›)

@[simp] theorem cst_setVn (e : E ℝ) (n : Option Nat) : isConstantExpr (e.setVn n) = isConstantExpr e := by cases e <;> rfl
@[simp] theorem cst_clone (e : E ℝ) : isConstantExpr e.clone = isConstantExpr e := by
  induction e <;> simp_all [E.clone, isConstantExpr]

@[simp] theorem S_setVn (e : E ℝ) (n : Option Nat) : S px (e.setVn n) ↔ S px e := by
  cases e with
  | un k o l => cases o <;> exact Iff.rfl
  | bin k o l r => cases o <;> exact Iff.rfl
  | tern k o l a b => cases o <;> exact Iff.rfl
  | _ => exact Iff.rfl

@[simp] theorem F_setVn (e : E ℝ) (n : Option Nat) : F px (e.setVn n) ↔ F px e := by
  cases e with
  | tern k o l a b => cases o <;> exact Iff.rfl
  | _ => exact Iff.rfl

theorem CI_clone (e : E ℝ) : CI px e.clone ↔ CI px e := by simp [CI]

@[simp] theorem S_clone (e : E ℝ) : S px e.clone ↔ S px e := by
  induction e with
  | load => exact Iff.rfl
  | const => exact Iff.rfl
  | un n o l ih =>
    have := ev_clone (px := px) (.un n o l)
    cases o <;> simp only [S, E.clone] at this ⊢ <;> rw [this]
  | bin n o l r ih1 ih2 =>
    have := ev_clone (px := px) (.bin n o l r)
    cases o <;> simp only [S, E.clone, ih1, ih2] at this ⊢ <;> rw [this]
  | tern n o l a b ih1 ih2 ih3 => cases o <;> simp only [S, E.clone, ev_clone, ih2, ih3]

@[simp] theorem F_clone (e : E ℝ) : F px e.clone ↔ F px e := by
  induction e with
  | load => exact Iff.rfl
  | const => exact Iff.rfl
  | un n o l ih => simp only [F, E.clone, ih, S_clone]
  | bin n o l r ih1 ih2 => simp only [F, E.clone, ih1, ih2, S_clone, CI_clone]
  | tern n o l a b ih1 ih2 ih3 => cases o <;> simp only [F, E.clone, ev_clone, ih1, ih2, ih3]

/-- `e'` is as good as `e`. -/
def Keep (px : Mem → Nat → ℝ) (e e' : E ℝ) : Prop :=
  (V px e → F px e → V px e' ∧ ev px e' = ev px e ∧ F px e' ∧ (S px e → S px e')) ∧
    (isConstantExpr e = true → isConstantExpr e' = true)

theorem Keep.refl (e : E ℝ) : Keep px e e := ⟨fun h h' => ⟨h, rfl, h', id⟩, id⟩

theorem Keep.trans {a b c : E ℝ} (h1 : Keep px a b) (h2 : Keep px b c) : Keep px a c := by
  refine ⟨?_, h2.2 ∘ h1.2⟩
  intro v f
  obtain ⟨p1, p2, p3, p4⟩ := h1.1 v f
  obtain ⟨q1, q2, q3, q4⟩ := h2.1 p1 p3
  exact ⟨q1, q2.trans p2, q3, q4 ∘ p4⟩

theorem Keep.pres {a b : E ℝ} (h : Keep px a b) (hf : F px a) : Pres px a b := fun v => ⟨(h.1 v hf).1, (h.1 v hf).2.1⟩

/-- What a step has to keep apart from the value. -/
def Ext (px : Mem → Nat → ℝ) (e e' : E ℝ) : Prop :=
  (V px e → F px e → ev px e' = ev px e → F px e' ∧ (S px e → S px e')) ∧
    (isConstantExpr e = true → isConstantExpr e' = true)

theorem Keep.of {e e' : E ℝ} (h1 : Pres px e e') (h2 : Ext px e e') : Keep px e e' := by
  refine ⟨?_, h2.2⟩
  intro v f
  obtain ⟨p1, p2⟩ := h1 v
  obtain ⟨q1, q2⟩ := h2.1 v f p2
  exact ⟨p1, p2, q1, q2⟩

theorem CI.keep {e e' : E ℝ} (h : CI px e) (h1 : ev px e' = ev px e) (h2 : isConstantExpr e = true → isConstantExpr e' = true) :
    CI px e' := ⟨h2 h.1, by rw [h1]; exact h.2⟩

theorem Keep.un {l l' : E ℝ} (n n' : Option Nat) (o : Un) (h : Keep px l l') : Keep px (.un n o l) (.un n' o l') := by
  refine ⟨?_, h.2⟩
  intro v f
  obtain ⟨p1, p2, p3, p4⟩ := h.1 v.1 f.1
  obtain ⟨q1, q2⟩ := Pres.un n n' o (h.pres f.1) v
  refine ⟨q1, q2, ⟨p3, fun ho => p4 (f.2 ho)⟩, ?_⟩
  cases o <;> simp only [S] <;> first
    | exact id
    | (intro h; rw [q2]; exact h)

theorem Keep.bin {l l' r r' : E ℝ} (n n' : Option Nat) (o : Bin) (h : Keep px l l') (h' : Keep px r r') :
    Keep px (.bin n o l r) (.bin n' o l' r') := by
  constructor
  · intro v f
    obtain ⟨p1, p2, p3, p4⟩ := h.1 v.1 f.1
    obtain ⟨r1, r2, r3, r4⟩ := h'.1 v.2.1 f.2.1
    obtain ⟨q1, q2⟩ := Pres.bin n n' o (h.pres f.1) (h'.pres f.2.1) v
    refine ⟨q1, q2, ⟨p3, r3, fun ho => (f.2.2 ho).imp p4 (fun hc => hc.keep r2 h'.2)⟩, ?_⟩
    cases o <;> simp only [S] <;> first
      | exact id
      | exact p4
      | (rintro ⟨h1, h2⟩; exact ⟨p4 h1, r4 h2⟩)
      | (intro h; rw [q2]; exact h)
  · simp only [isConstantExpr, Bool.and_eq_true]
    exact And.imp h.2 h'.2

theorem Keep.tern {l l' a a' b b' : E ℝ} (n n' : Option Nat) (o : Tern) (h : Keep px l l') (h' : Keep px a a')
    (h'' : Keep px b b') : Keep px (.tern n o l a b) (.tern n' o l' a' b') := by
  refine ⟨?_, by simp only [isConstantExpr, Bool.and_eq_true]; exact And.imp h.2 (And.imp h'.2 h''.2)⟩
  cases o with
  | fma k =>
    rintro ⟨v1, v2, v3⟩ ⟨f1, f2, f3⟩
    obtain ⟨p1, p2, p3, p4⟩ := h.1 v1 f1
    obtain ⟨q1, q2, q3, q4⟩ := h'.1 v2 f2
    obtain ⟨r1, r2, r3, r4⟩ := h''.1 v3 f3
    obtain ⟨t1, t2⟩ := Pres.tern n n' (.fma k) (h.pres f1) (h'.pres f2) (h''.pres f3) ⟨v1, v2, v3⟩
    exact ⟨t1, t2, ⟨p3, q3, r3⟩, False.elim⟩
  | ternary =>
    rintro ⟨v1, v2, v3⟩ ⟨f1, f2, f3⟩
    obtain ⟨p1, p2, p3, p4⟩ := h.1 v1 f1
    have e1 : ev px (.tern n' .ternary l' a' b') = ev px (.tern n .ternary l a b) := by
      rw [ev_ternary, ev_ternary, p2]
      split
      · exact (h'.1 (v2 ‹_›) (f2 ‹_›)).2.1
      · exact (h''.1 (v3 ‹_›) (f3 ‹_›)).2.1
    refine ⟨⟨p1, ?_, ?_⟩, e1, ⟨p3, ?_, ?_⟩, ?_⟩
    · rw [p2]; exact fun hc => (h'.1 (v2 hc) (f2 hc)).1
    · rw [p2]; exact fun hc => (h''.1 (v3 hc) (f3 hc)).1
    · rw [p2]; exact fun hc => (h'.1 (v2 hc) (f2 hc)).2.2.1
    · rw [p2]; exact fun hc => (h''.1 (v3 hc) (f3 hc)).2.2.1
    · rintro ⟨s1, s2⟩
      refine ⟨?_, ?_⟩
      · rw [p2]; exact fun hc => (h'.1 (v2 hc) (f2 hc)).2.2.2 (s1 hc)
      · rw [p2]; exact fun hc => (h''.1 (v3 hc) (f3 hc)).2.2.2 (s2 hc)

/-- A step that keeps. -/
def Keeps (px : Mem → Nat → ℝ) (r : Rule ℝ) : Prop := ∀ e e' c, r e = .ok (e', c) → Keep px e e'

theorem Keeps.rule {f : E ℝ → Option (E ℝ)} (h : ∀ e e', f e = some e' → Pres px e e')
    (h' : ∀ e e', f e = some e' → Ext px e e') : Keeps px (rule f) := by
  intro e e' c he
  unfold Expr.rule at he
  split at he
  · rename_i x hx
    cases he
    exact Keep.of (h _ _ hx) (h' _ _ hx)
  · cases he
    exact Keep.refl _

theorem Keeps.list {rs : List (Rule ℝ)} (h : ∀ r ∈ rs, Keeps px r) : Keeps px (applyRules rs) := by
  induction rs with
  | nil => intro e e' c he; cases he; exact Keep.refl _
  | cons r rs ih =>
    intro e e' c he
    unfold applyRules at he
    obtain ⟨x, h1, he⟩ := bind_eq_ok he
    obtain ⟨y, h2, he⟩ := bind_eq_ok he
    cases he
    exact (h r (List.mem_cons_self ..) _ _ _ h1).trans (ih (fun r' hr => h r' (List.mem_cons_of_mem _ hr)) _ _ _ h2)

theorem Keeps.postorder {v : Bool → Rule ℝ} (hv : ∀ p, Keeps px (v p)) : ∀ p, Keeps px (postorder v p) := by
  have main : ∀ e : E ℝ, ∀ p e' c, Expr.postorder v p e = .ok (e', c) → Keep px e e' := by
    intro e
    induction e with
    | load n m k => intro p e' c h; exact hv p _ _ _ h
    | const n a => intro p e' c h; exact hv p _ _ _ h
    | un n o l ih =>
      intro p e' c h
      unfold Expr.postorder at h
      obtain ⟨x, h1, h⟩ := bind_eq_ok h
      obtain ⟨y, h2, h⟩ := bind_eq_ok h
      cases h
      exact (Keep.un n n o (ih _ _ _ h1)).trans (hv p _ _ _ h2)
    | bin n o l r ih1 ih2 =>
      intro p e' c h
      unfold Expr.postorder at h
      obtain ⟨x, h1, h⟩ := bind_eq_ok h
      obtain ⟨y, h2, h⟩ := bind_eq_ok h
      obtain ⟨z, h3, h⟩ := bind_eq_ok h
      cases h
      exact (Keep.bin n n o (ih1 _ _ _ h1) (ih2 _ _ _ h2)).trans (hv p _ _ _ h3)
    | tern n o l a b ih1 ih2 ih3 =>
      intro p e' c h
      unfold Expr.postorder at h
      obtain ⟨x, h1, h⟩ := bind_eq_ok h
      obtain ⟨y, h2, h⟩ := bind_eq_ok h
      obtain ⟨z, h3, h⟩ := bind_eq_ok h
      obtain ⟨w, h4, h⟩ := bind_eq_ok h
      cases h
      exact (Keep.tern n n o (ih1 _ _ _ h1) (ih2 _ _ _ h2) (ih3 _ _ _ h3)).trans (hv p _ _ _ h4)
  intro p e e' c h
  exact main e p e' c h

/-! ## The local rules -/

theorem foldConst_ext (nan : ℝ) : ∀ e e', foldConst realArith nan e = some e' → Ext px e e' := by
  intro e e' h
  unfold foldConst at h
  split at h
  · cases h
    refine ⟨fun v f he => ⟨trivial, fun s => ?_⟩, fun _ => rfl⟩
    have := S_nonneg s
    rw [← he] at this
    exact this
  · cases h

theorem constRight_ext : ∀ e e', constRight e = some e' → Ext px e e' := by
  intro e e' h
  unfold constRight at h
  split at h
  all_goals first
    | (cases h; done)
    | (split at h
       · cases h
         refine ⟨fun v f he => ⟨⟨f.2.1, f.1, fun h => nomatch h⟩, fun s => ⟨s.2, s.1⟩⟩, ?_⟩
         simp only [isConstantExpr, Bool.and_eq_true]
         exact And.symm
       · cases h)

theorem addZero_ext : ∀ e e', addZero realArith e = some e' → Ext px e e' := by
  intro e e' h
  unfold addZero at h
  split at h
  · split at h
    · cases h
      exact ⟨fun v f he => ⟨by simpa using f.1, fun s => by simpa using s.1⟩, by simp +contextual [isConstantExpr]⟩
    · cases h
  · split at h
    · cases h
      exact ⟨fun v f he => ⟨by simpa using f.1, fun s => False.elim s⟩, by simp +contextual [isConstantExpr]⟩
    · cases h
  · cases h

theorem mulZero_ext : ∀ e e', mulZero realArith e = some e' → Ext px e e' := by
  intro e e' h
  unfold mulZero at h
  split at h
  · split at h
    · cases h
      exact ⟨fun v f he => ⟨trivial, fun s => by simp [S]⟩, fun _ => rfl⟩
    · cases h
  · split at h
    · cases h
      exact ⟨fun v f he => ⟨trivial, fun s => by simp [S]⟩, fun _ => rfl⟩
    · cases h
  · cases h

theorem mulOne_ext : ∀ e e', mulOne realArith e = some e' → Ext px e e' := by
  intro e e' h
  unfold mulOne at h
  split at h
  · split at h
    · cases h
      exact ⟨fun v f he => ⟨by simpa using f.1, fun s => by simpa using s.1⟩, by simp +contextual [isConstantExpr]⟩
    · cases h
  · split at h
    · cases h
      exact ⟨fun v f he => ⟨by simpa using f.1, fun s => by simpa using s.1⟩, by simp +contextual [isConstantExpr]⟩
    · cases h
  · cases h

theorem logExp_ext : ∀ e e', logExp e = some e' → Ext px e e' := by
  intro e e' h
  unfold logExp at h
  split at h
  · cases h
    exact ⟨fun v f he => ⟨by simpa using f.1.1, fun s => False.elim s⟩, by simp [isConstantExpr]⟩
  · cases h
    exact ⟨fun v f he => ⟨by simpa using f.1.1, fun s => False.elim s⟩, by simp [isConstantExpr]⟩
  · cases h

theorem powZero_ext : ∀ e e', powZero realArith e = some e' → Ext px e e' := by
  intro e e' h
  unfold powZero at h
  split at h
  · split at h
    · cases h
      exact ⟨fun v f he => ⟨trivial, fun s => by simp [S]⟩, fun _ => rfl⟩
    · cases h
  · cases h

theorem powOne_ext : ∀ e e', powOne realArith e = some e' → Ext px e e' := by
  intro e e' h
  unfold powOne at h
  split at h
  · split at h
    · cases h
      exact ⟨fun v f he => ⟨by simpa using f.1, fun s => (S_setVn _ _).2 s⟩, by simp +contextual [isConstantExpr]⟩
    · cases h
  · cases h

theorem zeroPow_ext : ∀ e e', zeroPow realArith e = some e' → Ext px e e' := by
  intro e e' h
  unfold zeroPow at h
  split at h
  · split at h
    · cases h
      exact ⟨fun v f he => ⟨trivial, fun s => by simp [S]⟩, fun _ => rfl⟩
    · cases h
  · cases h

theorem onePow_ext : ∀ e e', onePow realArith e = some e' → Ext px e e' := by
  intro e e' h
  unfold onePow at h
  split at h
  · split at h
    · cases h
      exact ⟨fun v f he => ⟨trivial, fun s => by simp [S]⟩, fun _ => rfl⟩
    · cases h
  · cases h

theorem CI_mul {n n' n'' : Option Nat} {b c : ℝ} (h1 : CI px (.const n b)) (h2 : CI px (.const n' c)) :
    CI px (.const n'' (b * c)) := by
  obtain ⟨_, i, hi⟩ := h1
  obtain ⟨_, j, hj⟩ := h2
  exact ⟨rfl, i * j, by rw [ev_const] at *; push_cast; rw [hi, hj]⟩

theorem powPow_ext : ∀ e e' c, powPow realArith e = .ok (e', c) → Ext px e e' := by
  intro e e' c h
  unfold powPow at h
  split at h
  · rename_i n n' a m b k c'
    obtain ⟨t, _, h⟩ := bind_eq_ok h
    cases t with
    | true =>
      simp only [if_true] at h
      cases h
      refine ⟨fun v f he => ⟨⟨⟨f.1.1, fun h => nomatch h⟩, trivial, fun _ => Or.inl ?_⟩, fun s => ?_⟩, by simp [isConstantExpr]⟩
      all_goals
        show 0 ≤ ev px (.un none .abs a)
        rw [ev_abs]
        exact abs_nonneg _
    | false =>
      simp only [Bool.false_eq_true, if_false] at h
      cases h
      refine ⟨fun v f he => ⟨⟨f.1.1, trivial, fun _ => ?_⟩, fun s => s⟩, by simp [isConstantExpr]⟩
      rcases f.2.2 rfl with h1 | h1
      · exact Or.inl h1
      · rcases f.1.2.2 rfl with h2 | h2
        · exact Or.inl h2
        · exact Or.inr (CI_mul h2 h1)
  · cases h
    exact ⟨fun _ f _ => ⟨f, id⟩, id⟩

theorem absAbs_ext : ∀ e e', absAbs e = some e' → Ext px e e' := by
  intro e e' h
  unfold absAbs at h
  split at h
  · cases h
    exact ⟨fun v f he => ⟨⟨f.1.1, fun h => nomatch h⟩, fun s => by
      show 0 ≤ ev px _
      rw [ev_abs]; exact abs_nonneg _⟩, by simp [isConstantExpr]⟩
  · cases h

theorem ternConst_ext : ∀ e e', ternConst realArith e = some e' → Ext px e e' := by
  intro e e' h
  unfold ternConst at h
  split at h
  · rename_i n m c a b
    cases h
    refine ⟨?_, ?_⟩
    · rintro ⟨_, v2, v3⟩ ⟨_, f2, f3⟩ _
      by_cases hc : 0 < c
      · have : realArith.lt (realArith.ofInt 0) c = true := by simpa using hc
        rw [if_pos this, F_setVn, S_setVn]
        exact ⟨f2 hc, fun s => s.1 hc⟩
      · have : ¬ realArith.lt (realArith.ofInt 0) c = true := by simpa using hc
        rw [if_neg this, F_setVn, S_setVn]
        exact ⟨f3 hc, fun s => s.2 hc⟩
    · rw [cst_setVn]
      simp only [isConstantExpr, Bool.and_eq_true]
      rintro ⟨_, h1, h2⟩
      split
      · exact h1
      · exact h2
  · cases h

theorem tern_flip_ext {n m : Option Nat} {x x' a b : E ℝ} (hF : F px x → F px x') (hx : 0 < ev px x' ↔ ¬ 0 < ev px x)
    (hc : isConstantExpr x = true → isConstantExpr x' = true) :
    Ext px (.tern n .ternary x a b) (.tern m .ternary x' b a) := by
  refine ⟨?_, ?_⟩
  · rintro _ ⟨f1, f2, f3⟩ _
    refine ⟨⟨hF f1, fun h => f3 (hx.1 h), fun h => f2 (by by_contra h'; exact h (hx.2 h'))⟩, ?_⟩
    rintro ⟨s1, s2⟩
    exact ⟨fun h => s2 (hx.1 h), fun h => s1 (by by_contra h'; exact h (hx.2 h'))⟩
  · simp only [isConstantExpr, Bool.and_eq_true]
    rintro ⟨h1, h2, h3⟩
    exact ⟨hc h1, h3, h2⟩

theorem ternCmp_ext : ∀ e e', ternCmp e = some e' → Ext px e e' := by
  intro e e' h
  unfold ternCmp at h
  split at h
  · cases h
    refine tern_flip_ext (fun f => ⟨f.1, f.2.1, fun h => nomatch h⟩) ?_ id
    rw [ev_cmp_pos, ev_cmp_pos]; simp [cmpProp]
  · cases h
    refine tern_flip_ext (fun f => ⟨f.1, f.2.1, fun h => nomatch h⟩) ?_ id
    rw [ev_cmp_pos, ev_cmp_pos]; simp [cmpProp]
  · cases h

theorem ternNot_ext : ∀ e e', ternNot e = some e' → Ext px e e' := by
  intro e e' h
  unfold ternNot at h
  split at h
  · cases h
    refine tern_flip_ext (fun f => by simpa using f.1) ?_ (by simp [isConstantExpr])
    rw [ev_setVn, ev_not]
    split <;> simp_all
  · cases h

theorem notCmp_ext : ∀ e e', notCmp e = some e' → Ext px e e' := by
  intro e e' h
  unfold notCmp at h
  split at h
  · cases h
    refine ⟨fun v f he => ⟨⟨f.1.1, f.1.2.1, fun h => nomatch h⟩, fun s => ?_⟩, by simp [isConstantExpr]⟩
    show 0 ≤ ev px _
    rw [he]
    exact s
  · cases h

/-- `applyLocalOptimizations` keeps the kind of tree. -/
theorem local_keeps (nan : ℝ) : Keeps px (applyLocalOptimizations realArith nan) := by
  refine Keeps.postorder (fun _ => Keeps.list ?_) false
  intro r hr
  simp only [localRules, List.mem_cons, List.not_mem_nil, or_false] at hr
  rcases hr with rfl | rfl | rfl | rfl | rfl | rfl | rfl | rfl | rfl | rfl | rfl | rfl | rfl | rfl | rfl | rfl
  · exact Keeps.rule (foldConst_sound nan) (foldConst_ext nan)
  · exact Keeps.rule constRight_sound constRight_ext
  · exact Keeps.rule addZero_sound addZero_ext
  · exact Keeps.rule mulZero_sound mulZero_ext
  · exact Keeps.rule mulOne_sound mulOne_ext
  · exact Keeps.rule logExp_sound logExp_ext
  · exact Keeps.rule powZero_sound powZero_ext
  · exact Keeps.rule powOne_sound powOne_ext
  · exact Keeps.rule zeroPow_sound zeroPow_ext
  · exact Keeps.rule onePow_sound onePow_ext
  · exact fun e e' c h => Keep.of (powPow_sound e e' c h) (powPow_ext e e' c h)
  · exact Keeps.rule absAbs_sound absAbs_ext
  · exact Keeps.rule ternConst_sound ternConst_ext
  · exact Keeps.rule ternCmp_sound ternCmp_ext
  · exact Keeps.rule ternNot_sound ternNot_ext
  · exact Keeps.rule notCmp_sound notCmp_ext

end VS.Expr
