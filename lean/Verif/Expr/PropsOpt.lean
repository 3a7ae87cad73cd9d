import Verif.Expr.LemmasAlg
import Verif.Expr.Props

/-!
# Expr: the optimizer

C54: on paper, that is with real numbers, the optimized expression has the value of the expression as it was written. This
is so for each pass but the one for sums and products; that one loses constants and signs.
-/

namespace VS.Expr

open Classical

variable {px : Mem → Nat → ℝ}

/-! ## Pass by pass -/

/-- **C54.** Local rules: where the expression is defined, the result is defined and has the same value. -/
theorem C54_local (nan : ℝ) (e e' : E ℝ) (c : Bool) (h : applyLocalOptimizations realArith nan e = .ok (e', c))
    (hv : V px e) : V px e' ∧ e'.eval realArith px = e.eval realArith px := local_sound nan e e' c h hv

/-- **C54.** Powers with the same base. -/
theorem C54_powers (e e' : E ℝ) (h : combinePowerTerms realArith e = .ok e') (hv : V px e) :
    V px e' ∧ e'.eval realArith px = e.eval realArith px := combinePower_pres e e' h hv

/-- **C54.** Comparisons, minimum and maximum. -/
theorem C54_comparisons (e : E ℝ) (hv : V px e) : V px (applyComparisonOptimizations realArith e).1 ∧
    (applyComparisonOptimizations realArith e).1.eval realArith px = e.eval realArith px := comparison_pres e hv

/-- **C54.** Strength reduction. -/
theorem C54_strength (twice : E ℝ → Bool → Bool) (e e' : E ℝ) (c : Bool)
    (h : applyStrengthReduction realArith twice e = .ok (e', c)) (hv : V px e) :
    V px e' ∧ e'.eval realArith px = e.eval realArith px := strength_sound twice e e' c h hv

/-- **C54.** Fused operators. -/
theorem C54_fusion (e e' : E ℝ) (c : Bool) (h : applyOpFusion realArith e = .ok (e', c)) (hv : V px e) :
    V px e' ∧ e'.eval realArith px = e.eval realArith px := fusion_sound e e' c h hv

/-- **C54, part.** Sums and products, for trees with harmless powers and with the constant term kept. Missing: powers with
fractional exponents of products of negative numbers, and the constant term of a sum without other terms. -/
theorem C54_sums_products_partial (e : E ℝ) (hv : V px e) (hf : F px e) :
    V px (applyAlgebraicOptimizations realArith id e).1 ∧
    (applyAlgebraicOptimizations realArith id e).1.eval realArith px = e.eval realArith px :=
  let ⟨h1, h2, _⟩ := (algebraicOptimizations_keep e).1 hv hf
  ⟨h1, h2⟩

/-! ## All passes -/

theorem pass1_keep (nan : ℝ) (e : E ℝ) (x : E ℝ × Bool) (h : pass1 realArith id nan e = .ok x) : Keep px e x.1 := by
  unfold pass1 at h
  obtain ⟨y, h1, h⟩ := bind_eq_ok h
  have k1 := local_keeps (px := px) nan e y.1 y.2 h1
  split at h
  · cases h; exact k1
  · obtain ⟨z, h2, h⟩ := bind_eq_ok h
    have k2 := combinePower_keep (px := px) _ _ h2
    have k3 := algebraicOptimizations_keep (px := px) z
    simp only at h
    split at h
    · cases h; exact (k1.trans k2).trans k3
    · cases h; exact ((k1.trans k2).trans k3).trans (comparison_keep _)

theorem pass2_sound (twice : E ℝ → Bool → Bool) (nan : ℝ) : Sound px (pass2 realArith twice nan) := by
  intro e e' c h
  unfold pass2 at h
  obtain ⟨y, h1, h⟩ := bind_eq_ok h
  have k1 := local_sound (px := px) nan e y.1 y.2 h1
  split at h
  · cases h; exact k1
  · obtain ⟨z, h2, h⟩ := bind_eq_ok h
    have k2 := strength_sound (px := px) twice _ z.1 z.2 h2
    split at h
    · cases h; exact k1.trans k2
    · exact (k1.trans k2).trans (fusion_sound _ _ _ h)

theorem passes_keep {p : Rule ℝ} (hp : ∀ e x, p e = .ok x → Keep px e x.1) (n : Nat) : ∀ e y, passes p n e = .ok y →
    Keep px e y.1 := by
  induction n with
  | zero =>
    intro e y h
    unfold passes at h
    obtain ⟨x, h1, h⟩ := bind_eq_ok h
    split at h
    · cases h
    · cases h; exact hp e x h1
  | succ n ih =>
    intro e y h
    unfold passes at h
    obtain ⟨x, h1, h⟩ := bind_eq_ok h
    split at h
    · exact (hp e x h1).trans (ih _ _ h)
    · cases h; exact hp e x h1

theorem passes_sound {p : Rule ℝ} (hp : Sound px p) (n : Nat) : ∀ e y, passes p n e = .ok y → Pres px e y.1 := by
  induction n with
  | zero =>
    intro e y h
    unfold passes at h
    obtain ⟨x, h1, h⟩ := bind_eq_ok h
    split at h
    · cases h
    · cases h; exact hp e x.1 x.2 h1
  | succ n ih =>
    intro e y h
    unfold passes at h
    obtain ⟨x, h1, h⟩ := bind_eq_ok h
    split at h
    · exact (hp e x.1 x.2 h1).trans (ih _ _ h)
    · cases h; exact hp e x.1 x.2 h1

/-- **C54, part.** All passes, in the order and as often as they are made. Every expression whose square roots and
fractional powers are taken of sums, products, quotients and powers of numbers which are not negative keeps its value,
provided that constant terms are kept. Missing: the program does not keep the constant of a sum without other terms
(`C54_constant_refuted`), and for other expressions the sign can get lost (`C54_sign_refuted`). -/
theorem C54_optimize_partial (twice : E ℝ → Bool → Bool) (nan : ℝ) (e t : E ℝ) (hv : V px e) (hf : F px e)
    (h : optimize realArith id twice nan e = .ok t) : V px t ∧ t.eval realArith px = e.eval realArith px := by
  unfold optimize at h
  obtain ⟨x, h1, h⟩ := bind_eq_ok h
  obtain ⟨y, h2, h⟩ := bind_eq_ok h
  cases h
  obtain ⟨p1, p2, _⟩ := (passes_keep (fun e x => pass1_keep nan e x) 1000 e x h1).1 hv hf
  obtain ⟨q1, q2⟩ := passes_sound (pass2_sound twice nan) _ _ _ h2 p1
  exact ⟨q1, q2.trans p2⟩

/-- **C54, part.** The program, from the text to the sample, if no constant gets lost on the way: the sample is what the
stack machine computes, with real numbers. -/
theorem C54_program_partial {num : List Char → Option ℝ} {fmt : Nat → Mem} {n : Nat} {s : List Char} {e : E ℝ}
    (hp : parseExpr num fmt n s = .ok e) (twice : E ℝ → Bool → Bool) (nan : ℝ) (m : Mem) (bits : Nat)
    (code : List (Insn ℝ)) (hv : V px e) (hf : F px e)
    (hk : optimize realArith (fun _ => 0) twice nan e = optimize realArith id twice nan e)
    (hc : compile realArith (fun _ => 0) twice nan e m bits = .ok code) (regs : List ℝ) (hr : regs.length = numRegs code) :
    ∃ ts v regs', tokensOf num (tokenize s) = some ts ∧ rpn realArith (fun i => px (fmt i) i) n ts [] = some [v] ∧
      run realArith px code regs = .ok (storeVal realArith m (if m = .u16 then bits else 0) v, regs') := by
  obtain ⟨ts, h1, h2⟩ := C51_value hp realArith px
  unfold compile at hc
  obtain ⟨t, h3, hc⟩ := bind_eq_ok hc
  rw [hk] at h3
  obtain ⟨_, h4⟩ := C54_optimize_partial twice nan e t hv hf h3
  obtain ⟨code', h5, h6⟩ := C52_code realArith px t m bits
  rw [hc] at h5
  cases h5
  obtain ⟨regs', h7, _⟩ := h6 regs hr
  exact ⟨ts, _, regs', h1, h2, by rw [h7, h4]⟩

/-- The tree of `x 255 / 0.45 pow 255 *`. -/
noncomputable def gamma : E ℝ :=
  .bin none .mul (.bin none .pow (.bin none .div (.load none .u8 0) (.const none 255)) (.const none (45 / 100)))
    (.const none 255)

/-- It is defined for every sample that is not negative, and its powers are harmless. -/
example (h : 0 < px .u8 0) : V px gamma ∧ F px gamma := by
  have h0 : (0 : ℝ) < px .u8 0 / 255 := by positivity
  refine ⟨⟨⟨⟨trivial, trivial, ?_⟩, trivial, Or.inl h0⟩, trivial, trivial⟩,
    ⟨⟨⟨trivial, trivial, fun h => nomatch h⟩, trivial, fun _ => Or.inl ⟨h.le, ?_⟩⟩, trivial, fun h => nomatch h⟩⟩
  · show (255 : ℝ) ≠ 0
    norm_num
  · show (0 : ℝ) ≤ 255
    norm_num

/-! ## What the program does wrong -/

/-- The program: text, optimization, byte code, one pixel. -/
def program (keep : Rat → Rat) (s : List Char) (px : Mem → Nat → Rat) : Res (Out Rat) := do
  let e ← parseExpr ratNum (fun _ => .u8) 2 s
  let code ← compile ratArith keep (fun _ b => !b) 0 e .u8 8
  let r ← run ratArith px code (List.replicate (numRegs code) 0)
  .ok r.1

/-- What is written in the text. -/
def written (s : List Char) (px : Mem → Nat → Rat) : Option (Out Rat) := do
  let ts ← tokensOf ratNum (tokenize s)
  let v ← rpn ratArith (px .u8) 2 ts []
  v.head?.map (storeVal ratArith .u8 0)

/-- One value for all clips. -/
def all (a : Rat) : Mem → Nat → Rat := fun _ _ => a

/-- **C54, counterexample.** `x sqrt x sqrt *` is 1 for every `x`, and `x x - 3 +` is 0: the exponent 1/2 + 1/2 and the
constant 3 get lost because no other term is left. -/
theorem C54_constant_refuted :
    (program (fun _ => 0) "x sqrt x sqrt *".toList (all 100) = .ok (.int 1) ∧
      written "x sqrt x sqrt *".toList (all 100) = some (.int 100)) ∧
    (program (fun _ => 0) "x x - 3 +".toList (all 100) = .ok (.int 0) ∧
      written "x x - 3 +".toList (all 100) = some (.int 3)) := by decide +kernel

/-- With the constant kept these expressions are right. -/
example : program id "x sqrt x sqrt *".toList (all 100) = .ok (.int 100) ∧
    program id "x x - 3 +".toList (all 100) = .ok (.int 3) := by decide +kernel

/-- **C54, counterexample.** `x 128 - dup * sqrt 2 /` is half of the distance of `x` from 128, but becomes
`(x - 128) * 0.5`: 0 instead of 14 for `x = 100`. -/
theorem C54_sign_refuted :
    program (fun _ => 0) "x 128 - dup * sqrt 2 /".toList (all 100) = .ok (.int 0) ∧
    program id "x 128 - dup * sqrt 2 /".toList (all 100) = .ok (.int 0) ∧
    written "x 128 - dup * sqrt 2 /".toList (all 100) = some (.int 14) := by decide +kernel

/-- **C54, counterexample.** `0 x pow` is 0 even for `x = 0`. The program without optimization, like the function `pow`
of C, has 1. -/
theorem C54_zero_power_refuted :
    program (fun _ => 0) "0 x pow".toList (all 0) = .ok (.int 0) ∧
    written "0 x pow".toList (all 0) = some (.int 1) := by decide +kernel

/-- **C54, counterexample.** A large constant as exponent is converted to `int`, which is undefined, although the
expression is accepted. -/
theorem C54_large_exponent_refuted :
    program (fun _ => 0) "x 10000000000 pow".toList (all 1) = .ub ∧
    (match parseExpr ratNum (fun _ => .u8) 2 "x 10000000000 pow".toList with
      | .ok (.bin _ .pow (.load _ _ c) (.const _ a)) => some (c, a)
      | _ => none) = some (0, 10000000000) := by decide +kernel

/-- An expression that meets the conditions of `C54_program_partial`: the constant makes no difference. -/
example : program (fun _ => 0) "x y - abs 2 * x y + 3 / max".toList px2 = .ok (.int 100) ∧
    program id "x y - abs 2 * x y + 3 / max".toList px2 = .ok (.int 100) ∧
    written "x y - abs 2 * x y + 3 / max".toList px2 = some (.int 100) := by decide +kernel

end VS.Expr
