import Verif.Expr.Basic

/-! # Expr: from text to a tree, expr.cpp:141-340 -/

namespace VS.Expr

variable {α : Type}

/-- `std::isspace` in the C locale. -/
def isSpace (c : Char) : Bool := c == ' ' || ('\t' ≤ c && c ≤ '\r')

/-- `tokenize`, expr.cpp:141-161: `cur` is the text between `prev` and `it`. -/
def tokenizeLoop : List Char → List Char → List (List Char)
  | [], cur => if cur = [] then [] else [cur]
  | c :: t, cur =>
    if isSpace c then (if cur = [] then [] else [cur]) ++ tokenizeLoop t []
    else tokenizeLoop t (cur ++ [c])

/-- `tokenize`, expr.cpp:141-161. -/
def tokenize (s : List Char) : List (List Char) := tokenizeLoop s []

/-- A decoded token: `ExprOp`, with `DUP` and `SWAP` (expr.h:86-91, expr.cpp:163-192). `clip` is `MEM_LOAD_U8`
before the type of the samples is known. -/
inductive Tok (α : Type) where
  | clip (i : Nat)
  | const (a : α)
  | un (op : Un)
  | bin (op : Bin)
  | ternary
  | dup (n : Nat)
  | swap (n : Nat)
  deriving DecidableEq, Repr

/-- The table `simple`, expr.cpp:165-191. -/
def simple : List (String × Tok α) :=
  [("+", .bin .add), ("-", .bin .sub), ("*", .bin .mul), ("/", .bin .div), ("sqrt", .un .sqrt), ("abs", .un .abs),
   ("max", .bin .max), ("min", .bin .min), ("<", .bin (.cmp .lt)), (">", .bin (.cmp .nle)), ("=", .bin (.cmp .eq)),
   (">=", .bin (.cmp .nlt)), ("<=", .bin (.cmp .le)), ("and", .bin .and), ("or", .bin .or), ("xor", .bin .xor),
   ("not", .un .not), ("?", .ternary), ("exp", .un .exp), ("log", .un .log), ("pow", .bin .pow), ("sin", .un .sin),
   ("cos", .un .cos), ("dup", .dup 0), ("swap", .swap 1)]

/-- Digits of `std::from_chars`: number and rest; `none` without digits. -/
def digits : List Char → Nat × List Char
  | c :: t => if c.isDigit then
      let r := digits t
      ((c.toNat - 48) * 10 ^ (t.length - r.2.length) + r.1, r.2) else (0, c :: t)
  | [] => (0, [])

/-- The number after `dup` or `swap`, expr.cpp:199-205: `std::from_chars` for `int`, the whole rest of the token has to
be consumed and the number must not be negative. -/
def stackIndex (s : List Char) : Option Nat :=
  match s with
  | [] => none
  | '-' :: t =>
    let r := digits t
    if t ≠ [] ∧ r.2 = [] ∧ r.1 = 0 then some 0 else none
  | s =>
    let r := digits s
    if r.2 = [] ∧ r.1 ≤ 2147483647 then some r.1 else none

/-- `decodeToken`, expr.cpp:163-218. `num` reads a floating point number (`std::istringstream >> float`), it fails
if anything is left. -/
def decodeToken (num : List Char → Option α) (t : List Char) : Res (Tok α) :=
  match simple.find? (fun e => e.1.toList == t) with
  | some e => .ok e.2
  | none =>
    match t with
    | [c] =>
      if 'a' ≤ c ∧ c ≤ 'z' then .ok (.clip (if 'x' ≤ c then c.toNat - 120 else c.toNat - 97 + 3))
      else match num [c] with
        | some a => .ok (.const a)
        | none => .err "failed to convert to float"
    | t =>
      if t.take 3 = ['d', 'u', 'p'] then
        match stackIndex (t.drop 3) with
        | some n => .ok (.dup n)
        | none => .err "illegal token"
      else if t.take 4 = ['s', 'w', 'a', 'p'] then
        match stackIndex (t.drop 4) with
        | some n => .ok (.swap n)
        | none => .err "illegal token"
      else match num t with
        | some a => .ok (.const a)
        | none => .err "failed to convert to float"

/-- `std::swap(stack.back(), stack[stack.size() - 1 - n])`; the top of the stack is the head of the list. -/
def swapTop {β : Type} (n : Nat) (s : List β) : List β :=
  match s[0]?, s[n]? with
  | some a, some b => (s.set n a).set 0 b
  | _, _ => s

/-- The loop body of `parseExpr`, expr.cpp:264-331. `fmt` gives the type of the samples of a clip (only 8 to 16 bit
and floating point formats pass `exprCreate`, exprfilter.cpp:280), `n` is the number of clips. -/
def parseStep (fmt : Nat → Mem) (n : Nat) (stack : List (E α)) : Tok α → Res (List (E α))
  | .clip i => if i ≥ n then .err "reference to undefined clip" else .ok (.load none (fmt i) i :: stack)
  | .const a => .ok (.const none a :: stack)
  | .un o =>
    match stack with
    | l :: s => .ok (.un none o l :: s)
    | _ => .err "insufficient values on stack"
  | .bin o =>
    match stack with
    | r :: l :: s => .ok (.bin none o l r :: s)
    | _ => .err "insufficient values on stack"
  | .ternary =>
    match stack with
    | c :: b :: a :: s => .ok (.tern none .ternary a b c :: s)
    | _ => .err "insufficient values on stack"
  | .dup k =>
    match stack[k]? with
    | some e => .ok (e.clone :: stack)
    | none => .err "insufficient values on stack"
  | .swap k => if k ≥ stack.length then .err "insufficient values on stack" else .ok (swapTop k stack)

/-- The loop of `parseExpr`, expr.cpp:264-331. -/
def parseLoop (num : List Char → Option α) (fmt : Nat → Mem) (n : Nat) : List (List Char) → List (E α) →
    Res (List (E α))
  | [], stack => .ok stack
  | t :: ts, stack => do
    let tok ← decodeToken num t
    let stack ← parseStep fmt n stack tok
    parseLoop num fmt n ts stack

/-- `parseExpr`, expr.cpp:220-340. -/
def parseExpr (num : List Char → Option α) (fmt : Nat → Mem) (n : Nat) (s : List Char) : Res (E α) := do
  match ← parseLoop num fmt n (tokenize s) [] with
  | [] => .err "empty expression"
  | [e] => .ok e
  | _ => .err "unconsumed values on stack"

end VS.Expr
