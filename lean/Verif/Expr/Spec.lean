import Verif.Expr.Parse

/-! # Expr: what an expression means -/

namespace VS.Expr

variable {α : Type}

/-- One token in reverse polish notation on a stack of numbers (doc/functions/video/expr.rst). `px i` is the sample of
clip `i`. `none`: there is no such clip or not enough values. -/
def rpnStep (A : Arith α) (px : Nat → α) (n : Nat) : Tok α → List α → Option (List α)
  | .clip i, s => if i < n then some (px i :: s) else none
  | .const a, s => some (a :: s)
  | .un o, x :: s => some (A.un o x :: s)
  | .bin o, y :: x :: s => some (A.bin o x y :: s)
  | .ternary, z :: y :: x :: s => some ((if A.toBool x then y else z) :: s)
  | .dup k, s => if h : k < s.length then some (s[k] :: s) else none
  | .swap k, s => if h : k < s.length then some ((s[k] :: (s.set k (s[0]'(by omega))).drop 1)) else none
  | _, _ => none

/-- Reverse polish notation. -/
def rpn (A : Arith α) (px : Nat → α) (n : Nat) : List (Tok α) → List α → Option (List α)
  | [], s => some s
  | t :: ts, s => (rpnStep A px n t s).bind (rpn A px n ts)

/-- The tokens of a text; `none` if a word is not a token. -/
def tokensOf (num : List Char → Option α) : List (List Char) → Option (List (Tok α))
  | [] => some []
  | w :: ws => match decodeToken num w, tokensOf num ws with
    | .ok t, some ts => some (t :: ts)
    | _, _ => none

end VS.Expr
