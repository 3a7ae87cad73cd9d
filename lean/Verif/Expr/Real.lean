import Verif.Expr.Opt
import Verif.Expr.LemmasCode
import Mathlib.Analysis.SpecialFunctions.Pow.Real

/-! # Expr: exact arithmetic with real numbers -/

namespace VS.Expr

open Classical in
/-- Arithmetic without rounding: the meaning of an expression on paper. -/
noncomputable def realArith : Arith ℝ where
  add := (· + ·)
  sub := (· - ·)
  mul := (· * ·)
  div := (· / ·)
  pow x y := x ^ y
  neg := (- ·)
  abs x := |x|
  sqrt := Real.sqrt
  exp := Real.exp
  log := Real.log
  sin := Real.sin
  cos := Real.cos
  eq x y := decide (x = y)
  lt x y := decide (x < y)
  le x y := decide (x ≤ y)
  ofInt n := (n : ℝ)
  half := 1 / 2
  isInteger x := decide (∃ n : ℤ, (n : ℝ) = x)
  toInt x := if -2147483649 < x ∧ x < 2147483648 then some (if 0 ≤ x then ⌊x⌋ else ⌈x⌉) else none
  isFinite _ := true
  lrint := round

/-- Value of a tree on paper. -/
noncomputable abbrev ev (px : Mem → Nat → ℝ) (e : E ℝ) : ℝ := e.eval realArith px

/-- A power is defined: positive base, or zero with a positive exponent, or an integer exponent. -/
def PowOk (b x : ℝ) : Prop := 0 < b ∨ (b = 0 ∧ 0 < x) ∨ (b ≠ 0 ∧ ∃ n : ℤ, (n : ℝ) = x)

/-- Where the operators with one operand are defined. -/
def UnOk : Un → ℝ → Prop
  | .sqrt, x => 0 ≤ x
  | .log, x => 0 < x
  | _, _ => True

/-- Where the operators with two operands are defined. -/
def BinOk : Bin → ℝ → ℝ → Prop
  | .div, _, y => y ≠ 0
  | .pow, x, y => PowOk x y
  | _, _, _ => True

/-- Every operation of the tree that matters for its value is defined. Of the branches of `?` only the one that is taken
matters. -/
def V (px : Mem → Nat → ℝ) : E ℝ → Prop
  | .load .. => True
  | .const .. => True
  | .un _ o l => V px l ∧ UnOk o (ev px l)
  | .bin _ o l r => V px l ∧ V px r ∧ BinOk o (ev px l) (ev px r)
  | .tern _ (.fma _) l a b => V px l ∧ V px a ∧ V px b
  | .tern _ .ternary l a b => V px l ∧ (0 < ev px l → V px a) ∧ (¬ 0 < ev px l → V px b)

/-- What is right for `e` is right for `e'`: where `e` is defined, `e'` is defined and has the same value. -/
def Pres (px : Mem → Nat → ℝ) (e e' : E ℝ) : Prop := V px e → V px e' ∧ ev px e' = ev px e

variable {px : Mem → Nat → ℝ}

theorem Pres.refl (e : E ℝ) : Pres px e e := fun h => ⟨h, rfl⟩

theorem Pres.trans {a b c : E ℝ} (h1 : Pres px a b) (h2 : Pres px b c) : Pres px a c := fun h =>
  ⟨(h2 (h1 h).1).1, by rw [(h2 (h1 h).1).2, (h1 h).2]⟩

@[simp] theorem V_setVn (e : E ℝ) (n : Option Nat) : V px (e.setVn n) ↔ V px e := by
  cases e with
  | tern k o l a b => cases o <;> exact Iff.rfl
  | _ => exact Iff.rfl

@[simp] theorem ev_setVn (e : E ℝ) (n : Option Nat) : ev px (e.setVn n) = ev px e := by
  cases e <;> rfl

@[simp] theorem ev_clone (e : E ℝ) : ev px e.clone = ev px e := by
  induction e with
  | load => rfl
  | const => rfl
  | un n o l ih => simp only [ev, E.clone, E.eval] at *; rw [ih]
  | bin n o l r ih1 ih2 => simp only [ev, E.clone, E.eval] at *; rw [ih1, ih2]
  | tern n o l a b ih1 ih2 ih3 => simp only [ev, E.clone, E.eval] at *; rw [ih1, ih2, ih3]

@[simp] theorem V_clone (e : E ℝ) : V px e.clone ↔ V px e := by
  induction e with
  | load => exact Iff.rfl
  | const => exact Iff.rfl
  | un n o l ih => simp only [E.clone, V, ev_clone, ih]
  | bin n o l r ih1 ih2 => simp only [E.clone, V, ev_clone, ih1, ih2]
  | tern n o l a b ih1 ih2 ih3 => cases o <;> simp only [E.clone, V, ev_clone, ih1, ih2, ih3]

theorem Pres.setVn (e : E ℝ) (n : Option Nat) : Pres px e (e.setVn n) := fun h => ⟨by simpa using h, by simp⟩

theorem Pres.un {l l' : E ℝ} (n n' : Option Nat) (o : Un) (h : Pres px l l') :
    Pres px (.un n o l) (.un n' o l') := by
  rintro ⟨h1, h2⟩
  obtain ⟨h3, h4⟩ := h h1
  exact ⟨⟨h3, by rw [h4]; exact h2⟩, by show realArith.un o (ev px l') = realArith.un o (ev px l); rw [h4]⟩

theorem Pres.bin {l l' r r' : E ℝ} (n n' : Option Nat) (o : Bin) (h : Pres px l l') (h' : Pres px r r') :
    Pres px (.bin n o l r) (.bin n' o l' r') := by
  rintro ⟨h1, h2, h5⟩
  obtain ⟨h3, h4⟩ := h h1
  obtain ⟨h6, h7⟩ := h' h2
  exact ⟨⟨h3, h6, by rw [h4, h7]; exact h5⟩, by
    show realArith.bin o (ev px l') (ev px r') = realArith.bin o (ev px l) (ev px r); rw [h4, h7]⟩

@[simp] theorem ev_ternary (n : Option Nat) (l a b : E ℝ) :
    ev px (.tern n .ternary l a b) = if 0 < ev px l then ev px a else ev px b := by
  show realArith.tern .ternary (ev px l) (ev px a) (ev px b) = _
  simp [Arith.tern, Arith.toBool, realArith]

theorem Pres.tern {l l' a a' b b' : E ℝ} (n n' : Option Nat) (o : Tern) (h : Pres px l l') (h' : Pres px a a')
    (h'' : Pres px b b') : Pres px (.tern n o l a b) (.tern n' o l' a' b') := by
  cases o with
  | fma k =>
    rintro ⟨h1, h2, h3⟩
    obtain ⟨p1, q1⟩ := h h1
    obtain ⟨p2, q2⟩ := h' h2
    obtain ⟨p3, q3⟩ := h'' h3
    refine ⟨⟨p1, p2, p3⟩, ?_⟩
    show realArith.tern (.fma k) (ev px l') (ev px a') (ev px b') = realArith.tern (.fma k) (ev px l) (ev px a) (ev px b)
    rw [q1, q2, q3]
  | ternary =>
    rintro ⟨h1, h2, h3⟩
    obtain ⟨p1, q1⟩ := h h1
    refine ⟨⟨p1, fun hc => (h' (h2 (q1 ▸ hc))).1, fun hc => (h'' (h3 (q1 ▸ hc))).1⟩, ?_⟩
    simp only [ev_ternary, q1]
    split
    · rename_i hc; exact (h' (h2 hc)).2
    · rename_i hc; exact (h'' (h3 hc)).2

/-- A step keeps definedness and values. -/
def Sound (px : Mem → Nat → ℝ) (r : Rule ℝ) : Prop := ∀ e e' c, r e = .ok (e', c) → Pres px e e'

theorem Sound.rule {f : E ℝ → Option (E ℝ)} (h : ∀ e e', f e = some e' → Pres px e e') : Sound px (rule f) := by
  intro e e' c he
  unfold Expr.rule at he
  split at he
  · rename_i x hx
    cases he
    exact h _ _ hx
  · cases he
    exact Pres.refl _

theorem Sound.list {rs : List (Rule ℝ)} (h : ∀ r ∈ rs, Sound px r) : Sound px (applyRules rs) := by
  induction rs with
  | nil => intro e e' c he; cases he; exact Pres.refl _
  | cons r rs ih =>
    intro e e' c he
    unfold applyRules at he
    cases h1 : r e with
    | ok x =>
      rw [h1] at he
      simp only [Res.bind_ok] at he
      cases h2 : applyRules rs x.1 with
      | ok y =>
        rw [h2] at he
        cases he
        exact (h r List.mem_cons_self e x.1 x.2 h1).trans
          (ih (fun r hr => h r (List.mem_cons_of_mem _ hr)) x.1 y.1 y.2 h2)
      | err m => rw [h2] at he; cases he
      | fatal m => rw [h2] at he; cases he
      | ub => rw [h2] at he; cases he
    | err m => rw [h1] at he; cases he
    | fatal m => rw [h1] at he; cases he
    | ub => rw [h1] at he; cases he

theorem bind_eq_ok {β γ : Type} {x : Res β} {f : β → Res γ} {y : γ} (h : (x >>= f) = .ok y) :
    ∃ a, x = .ok a ∧ f a = .ok y := by
  cases x with
  | ok a => exact ⟨a, rfl, h⟩
  | err m => cases h
  | fatal m => cases h
  | ub => cases h

theorem Sound.postorder {v : Bool → Rule ℝ} (hv : ∀ p, Sound px (v p)) : ∀ p, Sound px (postorder v p) := by
  have main : ∀ e : E ℝ, ∀ p e' c, Expr.postorder v p e = .ok (e', c) → Pres px e e' := by
    intro e
    induction e with
    | load n m k => intro p e' c h; exact hv p _ _ _ h
    | const n a => intro p e' c h; exact hv p _ _ _ h
    | un n o l ih =>
      intro p e' c h
      unfold Expr.postorder at h
      obtain ⟨x, h1, h⟩ := bind_eq_ok h
      obtain ⟨y, h2, h⟩ := bind_eq_ok h
      cases h
      exact (Pres.un n n o (ih _ _ _ h1)).trans (hv p _ _ _ h2)
    | bin n o l r ih1 ih2 =>
      intro p e' c h
      unfold Expr.postorder at h
      obtain ⟨x, h1, h⟩ := bind_eq_ok h
      obtain ⟨y, h2, h⟩ := bind_eq_ok h
      obtain ⟨z, h3, h⟩ := bind_eq_ok h
      cases h
      exact (Pres.bin n n o (ih1 _ _ _ h1) (ih2 _ _ _ h2)).trans (hv p _ _ _ h3)
    | tern n o l a b ih1 ih2 ih3 =>
      intro p e' c h
      unfold Expr.postorder at h
      obtain ⟨x, h1, h⟩ := bind_eq_ok h
      obtain ⟨y, h2, h⟩ := bind_eq_ok h
      obtain ⟨z, h3, h⟩ := bind_eq_ok h
      obtain ⟨w, h4, h⟩ := bind_eq_ok h
      cases h
      exact (Pres.tern n n o (ih1 _ _ _ h1) (ih2 _ _ _ h2) (ih3 _ _ _ h3)).trans (hv p _ _ _ h4)
  intro p e e' c h
  exact main e p e' c h

end VS.Expr
