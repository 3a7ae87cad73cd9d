import Verif.Expr.Code

/-! # Expr: the optimizing passes, expr.cpp:342-435, 477-1404, 1460-1473 -/

namespace VS.Expr

variable {α : Type}

/-- `isConstantExpr`, expr.cpp:342-355. -/
def isConstantExpr : E α → Bool
  | .load .. => false
  | .const .. => true
  | .un _ _ l => isConstantExpr l
  | .bin _ _ l r => isConstantExpr l && isConstantExpr r
  | .tern _ _ l a b => isConstantExpr l && (isConstantExpr a && isConstantExpr b)

/-- `isConstant`, expr.cpp:357-360. -/
def isConst : E α → Bool
  | .const .. => true
  | _ => false

/-- `evalConstantExpr`, expr.cpp:367-421. Loads (`default`, `NAN`) do not occur in constant trees; the value is `nan`. -/
def evalConstantExpr (A : Arith α) (nan : α) (e : E α) : α := e.eval A (fun _ _ => nan)

/-- The visitor of a pass, as a sequence of rewriting steps: the new node and whether something changed. -/
abbrev Rule (α : Type) := E α → Res (E α × Bool)

/-- Steps of a visitor, one after the other. -/
def applyRules : List (Rule α) → Rule α
  | [], e => .ok (e, false)
  | r :: rs, e => do
    let x ← r e
    let y ← applyRules rs x.1
    .ok (y.1, x.2 || y.2)

/-- `postorder`, expr.cpp:86-95; the visitor gets to know whether the parent is an addition or a subtraction. -/
def postorder (v : Bool → Rule α) (p : Bool) : Rule α
  | .load n m c => v p (.load n m c)
  | .const n a => v p (.const n a)
  | .un n o l => do
    let x ← postorder v false l
    let y ← v p (.un n o x.1)
    .ok (y.1, x.2 || y.2)
  | .bin n o l r => do
    let q := decide (o = .add ∨ o = .sub)
    let x ← postorder v q l
    let y ← postorder v q r
    let z ← v p (.bin n o x.1 y.1)
    .ok (z.1, x.2 || y.2 || z.2)
  | .tern n o l a b => do
    let x ← postorder v false l
    let y ← postorder v false a
    let z ← postorder v false b
    let w ← v p (.tern n o x.1 y.1 z.1)
    .ok (w.1, x.2 || y.2 || z.2 || w.2)

/-- A step that never fails: `some` is the changed node. -/
def rule (f : E α → Option (E α)) : Rule α := fun e =>
  match f e with
  | some e' => .ok (e', true)
  | none => .ok (e, false)

section
variable (A : Arith α)

/-- Is it this constant? `isConstant`, expr.cpp:362-365. -/
def isVal (a : α) (k : Int) : Bool := A.eq a (A.ofInt k)

/-- Constant folding, expr.cpp:1049-1054. -/
def foldConst (nan : α) : E α → Option (E α) := fun e =>
  if !isConst e && isConstantExpr e then some (.const e.vn (evalConstantExpr A nan e)) else none

/-- Constants to the right, expr.cpp:1056-1060. -/
def constRight : E α → Option (E α)
  | .bin n .add l r => if isConst l && !isConst r then some (.bin n .add r l) else none
  | .bin n .mul l r => if isConst l && !isConst r then some (.bin n .mul r l) else none
  | _ => none

/-- `x + 0`, `x - 0`, expr.cpp:1062-1066. -/
def addZero : E α → Option (E α)
  | .bin n .add l (.const _ c) => if isVal A c 0 then some (l.setVn n) else none
  | .bin n .sub l (.const _ c) => if isVal A c 0 then some (l.setVn n) else none
  | _ => none

/-- `x * 0`, `0 / x`, expr.cpp:1068-1072. -/
def mulZero : E α → Option (E α)
  | .bin n .mul _ (.const _ c) => if isVal A c 0 then some (.const n (A.ofInt 0)) else none
  | .bin n .div (.const _ c) _ => if isVal A c 0 then some (.const n (A.ofInt 0)) else none
  | _ => none

/-- `x * 1`, `x / 1`, expr.cpp:1074-1078. -/
def mulOne : E α → Option (E α)
  | .bin n .mul l (.const _ c) => if isVal A c 1 then some (l.setVn n) else none
  | .bin n .div l (.const _ c) => if isVal A c 1 then some (l.setVn n) else none
  | _ => none

/-- `log(exp(x))`, `exp(log(x))`, expr.cpp:1080-1084. -/
def logExp : E α → Option (E α)
  | .un n .log (.un _ .exp l) => some (l.setVn n)
  | .un n .exp (.un _ .log l) => some (l.setVn n)
  | _ => none

/-- `x ** 0`, expr.cpp:1086-1090. -/
def powZero : E α → Option (E α)
  | .bin n .pow _ (.const _ c) => if isVal A c 0 then some (.const n (A.ofInt 1)) else none
  | _ => none

/-- `x ** 1`, expr.cpp:1092-1096. -/
def powOne : E α → Option (E α)
  | .bin n .pow l (.const _ c) => if isVal A c 1 then some (l.setVn n) else none
  | _ => none

/-- `0 ** x`, expr.cpp:1098-1102. -/
def zeroPow : E α → Option (E α)
  | .bin n .pow (.const _ c) _ => if isVal A c 0 then some (.const n (A.ofInt 0)) else none
  | _ => none

/-- `1 ** x`, expr.cpp:1104-1108. -/
def onePow : E α → Option (E α)
  | .bin n .pow (.const _ c) _ => if isVal A c 1 then some (.const n (A.ofInt 1)) else none
  | _ => none

/-- The condition on the exponents, expr.cpp:1117: even and not an integer. The conversion to `int` is undefined for
numbers outside of its range. -/
def evenFrac (x y : α) : Res Bool :=
  if A.isInteger x then
    match A.toInt x with
    | none => .ub
    | some i => .ok (decide (i % 2 = 0) && !A.isInteger y)
  else .ok false

/-- `(a ** b) ** c`, expr.cpp:1110-1127. -/
def powPow : Rule α
  | .bin n .pow (.bin n' .pow a (.const m b)) (.const k c) => do
    if ← evenFrac A b c then .ok (.bin n .pow (.un none .abs a) (.const none (A.mul b c)), true)
    else .ok (.bin n .pow a (.const none (A.mul b c)), true)
  | e => .ok (e, false)

/-- `abs(abs(x))`, expr.cpp:1129-1133. -/
def absAbs : E α → Option (E α)
  | .un n .abs (.un _ .abs l) => some (.un n .abs l)
  | _ => none

/-- A constant condition, expr.cpp:1135-1140. -/
def ternConst : E α → Option (E α)
  | .tern n .ternary (.const _ c) a b => some ((if A.lt (A.ofInt 0) c then a else b).setVn n)
  | _ => none

/-- `a <= b ? x : y`, `a >= b ? x : y`, expr.cpp:1142-1151. -/
def ternCmp : E α → Option (E α)
  | .tern n .ternary (.bin m (.cmp .le) x y) a b => some (.tern n .ternary (.bin m (.cmp .nle) x y) b a)
  | .tern n .ternary (.bin m (.cmp .nlt) x y) a b => some (.tern n .ternary (.bin m (.cmp .lt) x y) b a)
  | _ => none

/-- `!a ? b : c`, expr.cpp:1153-1158. -/
def ternNot : E α → Option (E α)
  | .tern n .ternary (.un m .not x) a b => some (.tern n .ternary (x.setVn m) b a)
  | _ => none

/-- The opposite comparison, expr.cpp:1162-1169. -/
def Cmp.not : Cmp → Cmp
  | .eq => .neq
  | .lt => .nlt
  | .le => .nle
  | .neq => .eq
  | .nlt => .lt
  | .nle => .le

/-- `!(a < b)`, expr.cpp:1160-1172. -/
def notCmp : E α → Option (E α)
  | .un n .not (.bin _ (.cmp c) x y) => some (.bin n (.cmp c.not) x y)
  | _ => none

/-- The visitor of `applyLocalOptimizations`, expr.cpp:1044-1173. -/
def localRules (nan : α) : List (Rule α) :=
  [rule (foldConst A nan), rule constRight, rule (addZero A), rule (mulZero A), rule (mulOne A), rule logExp,
   rule (powZero A), rule (powOne A), rule (zeroPow A), rule (onePow A), powPow A, rule absAbs, rule (ternConst A),
   rule ternCmp, rule ternNot, rule notCmp]

/-- `applyLocalOptimizations`, expr.cpp:1040-1176. -/
def applyLocalOptimizations (nan : α) : Rule α := postorder (fun _ => applyRules (localRules A nan)) false

/-- `sqrt(x) = x ** 0.5`, expr.cpp:909-914. -/
def sqrtPow : E α → Option (E α)
  | .un n .sqrt l => some (.bin n .pow l (.const none A.half))
  | _ => none

/-- `(a ** b) * a`, expr.cpp:916-924. -/
def mulPow1 : E α → Option (E α)
  | .bin n .mul (.bin _ .pow a b) r =>
    if a.vn = r.vn then some (.bin n .pow a (.bin none .add b (.const none (A.ofInt 1)))) else none
  | _ => none

/-- `(a ** b) * (a ** c)`, expr.cpp:926-935. -/
def mulPow2 : E α → Option (E α)
  | .bin n .mul (.bin _ .pow a b) (.bin _ .pow c d) =>
    if a.vn = c.vn then some (.bin n .pow a (.bin none .add b d)) else none
  | _ => none

/-- `combinePowerTerms`, expr.cpp:899-941. The function always returns false: the variable `changed` that it returns is
shadowed by the one in the visitor. -/
def combinePowerTerms [DecidableEq α] (e : E α) : Res (E α) := do
  let x ← postorder (fun _ => applyRules [rule (sqrtPow A), rule (mulPow1 A), rule mulPow2]) false
    (applyValueNumbering e)
  .ok x.1

/-! ## Sums and products -/

/-- `std::map` from numbers to exponents, in ascending order, together with the nodes that `index` has for the numbers.
Nodes with the same number are equal trees. -/
abbrev PMap (α : Type) := List (E α × α)

/-- `map[e.valueNum] = f(map[e.valueNum])`, a missing exponent is 0. -/
def updExp (e : E α) (f : α → α) : PMap α → PMap α
  | [] => [(e, f (A.ofInt 0))]
  | (k, x) :: t =>
    if e.vn = k.vn then (k, f x) :: t
    else if e.vn.getD 0 < k.vn.getD 0 then (e, f (A.ofInt 0)) :: (k, x) :: t
    else (k, x) :: updExp e f t

/-- `ExponentMap`, expr.cpp:490-714. -/
structure EMap (α : Type) where
  map : PMap α
  orig : List (E α)
  coeff : α

/-- The body of the loop of `expandOnePass`, expr.cpp:557-587; `acc` are the terms in front of the current one. The
numbers of the operands are smaller than the number of the term, so that new terms belong in front of it. -/
def expandTerm (acc : PMap α) (t : E α × α) : PMap α × Bool :=
  match t with
  | (.bin _ .pow l (.const _ c), x) => (updExp A l (fun y => A.add y (A.mul x c)) acc, true)
  | (.bin _ .mul l r, x) => (updExp A r (fun y => A.add y x) (updExp A l (fun y => A.add y x) acc), true)
  | (.bin _ .div l r, x) => (updExp A r (fun y => A.sub y x) (updExp A l (fun y => A.add y x) acc), true)
  | t => (acc ++ [t], false)

/-- `expandOnePass`, expr.cpp:552-591. -/
def expandOnePass : PMap α → PMap α → PMap α × Bool
  | acc, [] => (acc, false)
  | acc, t :: ts =>
    let x := expandTerm A acc t
    let y := expandOnePass x.1 ts
    (y.1, x.2 || y.2)

/-- The loop around `expandOnePass`, expr.cpp:642-644. The largest number that can be expanded gets smaller each time,
so there are at most as many passes as nodes. -/
def expandPasses : Nat → PMap α → PMap α
  | 0, m => m
  | f + 1, m =>
    let x := expandOnePass A [] m
    if x.2 then expandPasses f x.1 else x.1

/-- `combineConstants`, expr.cpp:593-604. -/
def combineConstants : PMap α → α → PMap α × α
  | [], c => ([], c)
  | (.const _ a, x) :: t, c => combineConstants t (A.mul c (A.pow a x))
  | e :: t, c =>
    let r := combineConstants t c
    (e :: r.1, r.2)

/-- `expandOrigSequence` until nothing changes, expr.cpp:532-550, 647-649. -/
def flatten : E α → List (E α)
  | .bin _ .pow l (.const _ _) => flatten l
  | .bin _ .mul l r => flatten l ++ flatten r
  | .bin _ .div l r => flatten l ++ flatten r
  | e => [e]

/-- Number of nodes, a bound for the loops. -/
def nodes : E α → Nat
  | .load .. => 1
  | .const .. => 1
  | .un _ _ l => nodes l + 1
  | .bin _ _ l r => nodes l + nodes r + 1
  | .tern _ _ l a b => nodes l + nodes a + nodes b + 1

/-- `ExponentMap::expand`, expr.cpp:640-650. -/
def EMap.expand (fuel : Nat) (m : EMap α) : EMap α :=
  let r := combineConstants A (expandPasses A fuel m.map) m.coeff
  ⟨r.1, m.orig.flatMap flatten, r.2⟩

/-- `numTerms`, expr.cpp:622. -/
def EMap.numTerms (m : EMap α) : Nat := m.map.length + (if A.eq m.coeff (A.ofInt 1) then 0 else 1)

/-- `isSameTerm`, expr.cpp:624-638. -/
def sameTerm : PMap α → PMap α → Bool
  | [], [] => true
  | (e, x) :: s, (e', x') :: t => decide (e.vn = e'.vn) && (A.eq x x' && sameTerm s t)
  | _, _ => false

/-- Categories of `CanonicalCompare`, expr.cpp:506-507. -/
def category : E α → Nat
  | .const .. => 2
  | .load .. => 1
  | _ => 0

/-- `CanonicalCompare`, expr.cpp:494-523. -/
def canonLess (l r : E α × α) : Bool :=
  if l.1.vn = r.1.vn then A.lt l.2 r.2
  else if category l.1 ≠ category r.1 then decide (category l.1 < category r.1)
  else match l.1, r.1 with
    | .const _ a, .const _ b => A.lt a b
    | .load _ _ a, .load _ _ b => decide (a < b)
    | a, b => decide (a.vn.getD 0 < b.vn.getD 0)

/-- `std::is_sorted`. -/
def isSorted {β : Type} (less : β → β → Bool) : List β → Bool
  | a :: b :: t => !less b a && isSorted less (b :: t)
  | _ => true

/-- `std::sort`. The order of equivalent elements is not specified; they are equal here. -/
def sortBy {β : Type} (less : β → β → Bool) (l : List β) : List β := l.mergeSort (fun a b => !less b a)

/-- `std::lexicographical_compare`. -/
def lexLess {β : Type} (less : β → β → Bool) : List β → List β → Bool
  | _, [] => false
  | [], _ :: _ => true
  | a :: s, b :: t => if less a b then true else if less b a then false else lexLess less s t

/-- `isCanonical`, expr.cpp:652-659. -/
def EMap.isCanonical (m : EMap α) : Bool := isSorted (canonLess A) (m.orig.map (fun e => (e, A.ofInt 1)))

/-- `canonicalOrder`, expr.cpp:703-713. -/
def canonicalOrder (a b : EMap α) : Bool :=
  lexLess (canonLess A) (sortBy (canonLess A) a.map) (sortBy (canonLess A) b.map)

/-- One factor, expr.cpp:669-677. -/
def emitFactor (t : E α × α) : E α :=
  if A.eq t.2 (A.ofInt 1) then t.1.clone else .bin none .pow t.1.clone (.const none t.2)

/-- Product of factors, expr.cpp:666-687. -/
def emitProduct : List (E α × α) → Option (E α) → Option (E α)
  | [], node => node
  | t :: ts, none => emitProduct ts (some (emitFactor A t))
  | t :: ts, some node => emitProduct ts (some (.bin none .mul node (emitFactor A t)))

/-- `ExponentMap::emit`, expr.cpp:661-701. -/
def EMap.emit (m : EMap α) : E α :=
  match emitProduct A (sortBy (canonLess A) m.map) none with
  | some node => if A.eq m.coeff (A.ofInt 1) then node else .bin none .mul node (.const none m.coeff)
  | none => .const none m.coeff

/-- `AdditiveSequence`, expr.cpp:716-720. -/
structure ASeq (α : Type) where
  terms : List (EMap α)
  scalar : α

/-- Terms without factors, expr.cpp:738-746. -/
def takeScalars : List (EMap α) → α → List (EMap α) × α
  | [], s => ([], s)
  | t :: ts, s =>
    if t.map.isEmpty then takeScalars ts (A.add s t.coeff)
    else
      let r := takeScalars ts s
      (t :: r.1, r.2)

/-- The inner loop over the later terms, expr.cpp:749-754. -/
def absorb (t : EMap α) : List (EMap α) → EMap α × List (EMap α)
  | [] => (t, [])
  | u :: us =>
    if sameTerm A t.map u.map then
      let r := absorb { t with coeff := A.add t.coeff u.coeff } us
      (r.1, { u with coeff := A.mul u.coeff (A.ofInt 0) } :: r.2)
    else
      let r := absorb t us
      (r.1, u :: r.2)

theorem absorb_length (t : EMap α) (l : List (EMap α)) : (absorb A t l).2.length = l.length := by
  induction l generalizing t with
  | nil => rfl
  | cons u us ih => unfold absorb; split <;> simp [ih]

/-- Equal terms are combined, expr.cpp:748-762. -/
def mergeTerms : List (EMap α) → List (EMap α)
  | [] => []
  | t :: ts =>
    let r := absorb A t ts
    if A.eq r.1.coeff (A.ofInt 0) then mergeTerms r.2 else r.1 :: mergeTerms r.2
  termination_by l => l.length
  decreasing_by all_goals simp [absorb_length]

/-- `AdditiveSequence::expand`, expr.cpp:732-763. -/
def ASeq.expand (fuel : Nat) (s : ASeq α) : ASeq α :=
  let r := takeScalars A (s.terms.map (EMap.expand A fuel)) s.scalar
  ⟨mergeTerms A r.1, r.2⟩

/-- `numTerms`, expr.cpp:730. -/
def ASeq.numTerms (s : ASeq α) : Nat := s.terms.length + (if A.eq s.scalar (A.ofInt 0) then 0 else 1)

/-- Sum of terms, expr.cpp:781-794. -/
def emitSum : List (EMap α) → Option (E α) → Option (E α)
  | [], head => head
  | t :: ts, none => emitSum ts (some (t.emit A))
  | t :: ts, some head => emitSum ts (some (.bin none .add head (t.emit A)))

/-- `AdditiveSequence::emit`, expr.cpp:779-808. The constant is lost if no term is left; `keep` is the value of the
constant in this case: the program has 0, a correct one would have `scalarTerm`. -/
def ASeq.emit (keep : α → α) (s : ASeq α) : E α :=
  match emitSum A s.terms none with
  | some head =>
    if A.eq s.scalar (A.ofInt 0) then head
    else .bin none (if A.lt s.scalar (A.ofInt 0) then .sub else .add) head (.const none (A.abs s.scalar))
  | none => .const none (keep s.scalar)

/-- The terms of a sum with their signs, expr.cpp:817-839. -/
def sumTerms : Int → E α → List (E α × Int)
  | s, .bin _ .add l r => sumTerms s l ++ sumTerms s r
  | s, .bin _ .sub l r => sumTerms s l ++ sumTerms (-s) r
  | s, e => [(e, s)]

/-- `AdditiveSequence::addTerm`, expr.cpp:722-728. -/
def addTerm (t : E α × Int) : EMap α :=
  ⟨updExp A t.1 (fun y => A.add y (A.ofInt 1)) [], [t.1], A.mul (A.ofInt 1) (A.ofInt t.2)⟩

/-- `canonicalize`, expr.cpp:765-777: the sequence and whether it was in order. -/
def ASeq.canonicalize (s : ASeq α) : ASeq α × Bool :=
  if isSorted (canonicalOrder A) s.terms then (s, true)
  else (⟨sortBy (canonicalOrder A) s.terms, s.scalar⟩, false)

/-- `analyzeAdditiveExpression`, expr.cpp:811-851. -/
def analyzeAdditive (keep : α → α) (e : E α) : Option (E α) :=
  let ts := sumTerms 1 e
  let s := ASeq.expand A (nodes e) ⟨ts.map (addTerm A), A.ofInt 0⟩
  let r := s.canonicalize A
  if decide (r.1.numTerms A < ts.length) || !r.2 then some ((r.1.emit A keep).setVn e.vn) else none

/-- The factors of a product with their signs, expr.cpp:861-886. -/
def prodTerms : Int → E α → List (E α × Int)
  | s, .bin _ .mul l r => prodTerms s l ++ prodTerms s r
  | s, .bin _ .div l r => prodTerms s l ++ prodTerms (-s) r
  | s, e => [(e, s)]

/-- Number of divisions, expr.cpp:863-864. -/
def numDivs : E α → Nat
  | .bin _ .mul l r => numDivs l + numDivs r
  | .bin _ .div l r => numDivs l + numDivs r + 1
  | _ => 0

/-- `analyzeMultiplicativeExpression`, expr.cpp:853-897. -/
def analyzeMultiplicative (e : E α) : Option (E α) :=
  let ts := prodTerms 1 e
  let m := EMap.expand A (nodes e)
    ⟨ts.foldl (fun m t => updExp A t.1 (fun y => A.add y (A.ofInt t.2)) m) [], ts.map Prod.fst, A.ofInt 1⟩
  if decide (m.numTerms A < ts.length) || !m.isCanonical A || decide (numDivs e ≠ 0) then
    some ((m.emit A).setVn e.vn)
  else none

/-- Kind of the parent of a node. -/
inductive Parent where
  | sum | product | other
  deriving DecidableEq

/-- The kind of a node, as a parent. -/
def kindOf : Bin → Parent
  | .add => .sum
  | .sub => .sum
  | .mul => .product
  | .div => .product
  | _ => .other

/-- Analysis of the root of a sum or of a product, expr.cpp:951-959. -/
def analyzeRoot (keep : α → α) (p : Parent) (e : E α) : Option (E α) :=
  match e with
  | .bin _ o _ _ =>
    if kindOf o = .sum ∧ p ≠ .sum then analyzeAdditive A keep e
    else if kindOf o = .product ∧ p ≠ .product then analyzeMultiplicative A e
    else none
  | _ => none

/-- `applyAlgebraicOptimizations`, expr.cpp:943-965, on a numbered tree in preorder. After the first change nothing is
analyzed any more. -/
def algebraic (keep : α → α) : Parent → E α → Option (E α)
  | _, .load .. => none
  | _, .const .. => none
  | _, .un n o l => (algebraic keep .other l).map (fun x => .un n o x)
  | p, .bin n o l r =>
    match analyzeRoot A keep p (.bin n o l r) with
    | some e => some e
    | none =>
      match algebraic keep (kindOf o) l with
      | some x => some (.bin n o x r)
      | none => (algebraic keep (kindOf o) r).map (fun x => .bin n o l x)
  | _, .tern n o l a b =>
    match algebraic keep .other l with
    | some x => some (.tern n o x a b)
    | none =>
      match algebraic keep .other a with
      | some x => some (.tern n o l x b)
      | none => (algebraic keep .other b).map (fun x => .tern n o l a x)

/-- `applyAlgebraicOptimizations`, expr.cpp:943-965. -/
def applyAlgebraicOptimizations [DecidableEq α] (keep : α → α) (e : E α) : E α × Bool :=
  match algebraic A keep .other (applyValueNumbering e) with
  | some x => (x, true)
  | none => (applyValueNumbering e, false)

/-! ## Comparisons -/

/-- Comparison of a value with itself, expr.cpp:975-985. -/
def cmpSame : E α → Option (E α)
  | .bin n (.cmp c) l r =>
    if l.vn = r.vn then
      some (.const n (if c = .eq ∨ c = .le ∨ c = .nlt then A.ofInt 1 else A.ofInt 0))
    else none
  | _ => none

/-- Identical branches, expr.cpp:987-992. -/
def ternSame : E α → Option (E α)
  | .tern n .ternary _ a b => if a.vn = b.vn then some (a.setVn n) else none
  | _ => none

/-- Detection of minimum and maximum, expr.cpp:994-1017. -/
def minMax : E α → Option (E α)
  | .tern n .ternary (.bin _ (.cmp c) x y) a b =>
    if ((x.vn = a.vn ∧ y.vn = b.vn) ∨ (x.vn = b.vn ∧ y.vn = a.vn)) ∧ (c = .lt ∨ c = .le ∨ c = .nle ∨ c = .nlt) then
      if (if c = .lt ∨ c = .le then x.vn = a.vn else x.vn ≠ a.vn) then some (.bin n .min x y) else some (.bin n .max x y)
    else none
  | _ => none

/-- Comparisons used as a condition become differences, expr.cpp:1019-1032; `b`: the parent only looks at the sign. -/
def cmpSub (b : Bool) : E α → Option (E α)
  | .bin n (.cmp .lt) l r => if b then some (.bin n .sub r l) else none
  | .bin n (.cmp .nle) l r => if b then some (.bin n .sub l r) else none
  | _ => none

/-- The first step that applies. -/
def firstOf (e : E α) : List (E α → Option (E α)) → Option (E α)
  | [] => none
  | f :: fs => match f e with
    | some x => some x
    | none => firstOf e fs

/-- Does the operator look at the sign of its operands only? expr.cpp:1020. -/
def boolOp : Bin → Bool
  | .and => true
  | .or => true
  | .xor => true
  | _ => false

/-- `applyComparisonOptimizations`, expr.cpp:967-1038, on a numbered tree in preorder. -/
def comparison (b : Bool) (e : E α) : E α × Bool :=
  match firstOf e [cmpSame A, ternSame, minMax, cmpSub b] with
  | some x => (x, true)
  | none =>
    match e with
    | .load n m c => (.load n m c, false)
    | .const n a => (.const n a, false)
    | .un n o l =>
      let x := comparison false l
      (.un n o x.1, x.2)
    | .bin n o l r =>
      let x := comparison (boolOp o) l
      let y := comparison (boolOp o) r
      (.bin n o x.1 y.1, x.2 || y.2)
    | .tern n o l a b =>
      let x := comparison (decide (o = .ternary)) l
      let y := comparison false a
      let z := comparison false b
      (.tern n o x.1 y.1 z.1, x.2 || y.2 || z.2)

/-- `applyComparisonOptimizations`, expr.cpp:967-1038. -/
def applyComparisonOptimizations [DecidableEq α] (e : E α) : E α × Bool := comparison A false (applyValueNumbering e)

/-! ## Strength reduction -/

/-- `0 - x`, expr.cpp:1187-1193. -/
def zeroSub : E α → Option (E α)
  | .bin n .sub (.const _ c) r => if isVal A c 0 then some (.un n .neg r) else none
  | _ => none

/-- `x * -1`, `x / -1`, expr.cpp:1195-1201. -/
def mulNeg : E α → Option (E α)
  | .bin n .mul l (.const _ c) => if isVal A c (-1) then some (.un n .neg l) else none
  | .bin n .div l (.const _ c) => if isVal A c (-1) then some (.un n .neg l) else none
  | _ => none

/-- `a + -b`, `a - -b`, expr.cpp:1203-1208. -/
def addNeg : E α → Option (E α)
  | .bin n .add l (.un m .neg r) => some (.bin n .sub l (r.setVn m))
  | .bin n .sub l (.un m .neg r) => some (.bin n .add l (r.setVn m))
  | _ => none

/-- `-a + b`, expr.cpp:1210-1216. -/
def negAdd : E α → Option (E α)
  | .bin n .add (.un m .neg l) r => some (.bin n .sub r (l.setVn m))
  | _ => none

/-- `-(a - b)`, expr.cpp:1218-1223. -/
def negSub : E α → Option (E α)
  | .un n .neg (.bin _ .sub a b) => some (.bin n .sub b a)
  | _ => none

/-- `x * 2 = x + x`, expr.cpp:1225-1233. `twice` decides, given the node and whether the parent is an addition or
subtraction. The program decides by the parent pointer, which can be stale after nodes have been exchanged; in this case
`twice` is not simply the negation of its second argument. -/
def mulTwo (twice : E α → Bool → Bool) (p : Bool) : E α → Option (E α)
  | .bin n .mul l (.const m c) =>
    if isVal A c 2 && twice (.bin n .mul l (.const m c)) p then some (.bin n .add l (l.clone.setVn m)) else none
  | _ => none

/-- `x / c = x * (1 / c)`, expr.cpp:1235-1244. -/
def divConst : E α → Option (E α)
  | .bin n .div l (.const m c) =>
    let recip := A.div (A.ofInt 1) c
    if A.isFinite recip then some (.bin n .mul l (.const m recip)) else none
  | _ => none

/-- `(1 / x) * y`, expr.cpp:1246-1252. -/
def recipMul : E α → Option (E α)
  | .bin n .mul (.bin m .div (.const _ c) x) y => if isVal A c 1 then some (.bin n .div y (x.setVn m)) else none
  | _ => none

/-- `x * (1 / y)`, expr.cpp:1254-1259. -/
def mulRecip : E α → Option (E α)
  | .bin n .mul x (.bin m .div (.const _ c) y) => if isVal A c 1 then some (.bin n .div x (y.setVn m)) else none
  | _ => none

/-- `(a / b) * c`, expr.cpp:1261-1267. -/
def divMul : E α → Option (E α)
  | .bin n .mul (.bin m .div a b) c => some (.bin n .div (.bin m .mul a c) b)
  | _ => none

/-- `a * (b / c)`, expr.cpp:1269-1277. -/
def mulDiv : E α → Option (E α)
  | .bin n .mul a (.bin m .div b c) => some (.bin n .div (.bin m .mul a b) c)
  | _ => none

/-- `a / (b / c)`, expr.cpp:1279-1285. -/
def divDiv1 : E α → Option (E α)
  | .bin n .div a (.bin m .div b c) => some (.bin n .div (.bin m .mul a c) b)
  | _ => none

/-- `(a / b) / c`, expr.cpp:1287-1294. -/
def divDiv2 : E α → Option (E α)
  | .bin n .div (.bin m .div a b) c => some (.bin n .div a (.bin m .mul b c))
  | _ => none

/-- `x ** (n / 2)`, `x ** (n / 4)`, expr.cpp:1296-1303. -/
def powRoot : E α → Option (E α)
  | .bin n .pow x (.const _ f) =>
    if !A.isInteger f && A.isInteger (A.mul f (A.ofInt 4)) then
      some (.un n .sqrt (.bin none .pow x.clone (.const none (A.mul f (A.ofInt 2)))))
    else none
  | _ => none

/-- `x ** -n`, expr.cpp:1305-1313. -/
def powNeg : E α → Option (E α)
  | .bin n .pow x (.const _ f) =>
    if A.isInteger f && A.lt f (A.ofInt 0) then
      some (.bin n .div (.const none (A.ofInt 1)) (.bin none .pow x.clone (.const none (A.neg f))))
    else none
  | _ => none

/-- `emitIntegerPow`, expr.cpp:477-486, for positive exponents. -/
def emitIntegerPow (e : E α) (k : Nat) : E α :=
  if k ≤ 1 then e.clone
  else .bin none .mul (emitIntegerPow e ((k + 1) / 2)) (emitIntegerPow e (k - (k + 1) / 2))
  termination_by k
  decreasing_by all_goals omega

/-- `x ** n`, expr.cpp:1315-1323. The conversion to `int` is undefined for numbers outside of its range. -/
def powInt : Rule α
  | .bin n .pow x (.const k f) =>
    if A.isInteger f && A.lt (A.ofInt 0) f then
      match A.toInt f with
      | none => .ub
      | some i => .ok ((emitIntegerPow x i.toNat).setVn n, true)
    else .ok (.bin n .pow x (.const k f), false)
  | e => .ok (e, false)

/-- The visitor of `applyStrengthReduction`, expr.cpp:1182-1324. -/
def strengthRules (twice : E α → Bool → Bool) (p : Bool) : List (Rule α) :=
  [rule (zeroSub A), rule (mulNeg A), rule addNeg, rule negAdd, rule negSub, rule (mulTwo A twice p), rule (divConst A),
   rule (recipMul A), rule (mulRecip A), rule divMul, rule mulDiv, rule divDiv1, rule divDiv2, rule (powRoot A),
   rule (powNeg A), powInt A]

/-- `applyStrengthReduction`, expr.cpp:1178-1327. -/
def applyStrengthReduction (twice : E α → Bool → Bool) : Rule α :=
  postorder (fun p => applyRules (strengthRules A twice p)) false

/-! ## Fused operators -/

/-- `refCount`, expr.cpp:1336-1342: how often a number occurs. -/
def refCount (n : Option Nat) : E α → Nat
  | .load k _ _ => if k = n then 1 else 0
  | .const k _ => if k = n then 1 else 0
  | .un k _ l => refCount n l + (if k = n then 1 else 0)
  | .bin k _ l r => refCount n l + refCount n r + (if k = n then 1 else 0)
  | .tern k _ l a b => refCount n l + refCount n a + refCount n b + (if k = n then 1 else 0)

/-- `canElide`, expr.cpp:1349-1352. -/
def canElide (root : E α) (node cand : Option Nat) : Bool :=
  decide (refCount node root > 1) || decide (refCount cand root ≤ 1)

/-- `a + (b * c)`, expr.cpp:1355-1359. -/
def fuseAddR (el : Option Nat → Option Nat → Bool) : E α → Option (E α)
  | .bin n .add a (.bin m .mul b c) => if el n m then some (.tern n (.fma .fmadd) a b c) else none
  | _ => none

/-- `(b * c) + a`, expr.cpp:1360-1365. -/
def fuseAddL (el : Option Nat → Option Nat → Bool) : E α → Option (E α)
  | .bin n .add (.bin m .mul b c) a => if el n m then some (.tern n (.fma .fmadd) a b c) else none
  | _ => none

/-- `a - (b * c)`, expr.cpp:1366-1370. -/
def fuseSubR (el : Option Nat → Option Nat → Bool) : E α → Option (E α)
  | .bin n .sub a (.bin m .mul b c) => if el n m then some (.tern n (.fma .fnmadd) a b c) else none
  | _ => none

/-- `(b * c) - a`, expr.cpp:1371-1376. -/
def fuseSubL (el : Option Nat → Option Nat → Bool) : E α → Option (E α)
  | .bin n .sub (.bin m .mul b c) a => if el n m then some (.tern n (.fma .fmsub) a b c) else none
  | _ => none

/-- `(a + b) * c` with constants, expr.cpp:1378-1386. -/
def distribute (el : Option Nat → Option Nat → Bool) : E α → Option (E α)
  | .bin n .mul (.bin m .add a (.const i b)) (.const j c) =>
    if el n m then some (.bin n .add (.bin m .mul a (.const j c)) (.const i (A.mul b c))) else none
  | .bin n .mul (.bin m .sub a (.const i b)) (.const j c) =>
    if el n m then some (.bin n .sub (.bin m .mul a (.const j c)) (.const i (A.mul b c))) else none
  | _ => none

/-- Negated fused operators, expr.cpp:1392-1397. -/
def FmaType.neg : FmaType → FmaType
  | .fmadd => .fnmsub
  | .fmsub => .fnmadd
  | .fnmadd => .fmsub
  | .fnmsub => .fmadd

/-- `-(fma)`, expr.cpp:1388-1400. -/
def negFma (el : Option Nat → Option Nat → Bool) : E α → Option (E α)
  | .un n .neg (.tern m (.fma k) a b c) => if el n m then some (.tern n (.fma k.neg) a b c) else none
  | _ => none

/-- `applyOpFusion`, expr.cpp:1329-1404. -/
def applyOpFusion [DecidableEq α] (e : E α) : Res (E α × Bool) :=
  let t := applyValueNumbering e
  let el := canElide t
  postorder (fun _ => applyRules [rule (fuseAddR el), rule (fuseAddL el), rule (fuseSubR el), rule (fuseSubL el),
    rule (distribute A el), rule (negFma el)]) false t

/-! ## The loops -/

/-- One evaluation of the condition of the first loop, expr.cpp:1464. -/
def pass1 [DecidableEq α] (keep : α → α) (nan : α) (e : E α) : Res (E α × Bool) := do
  let x ← applyLocalOptimizations A nan e
  if x.2 then .ok x
  else
    let y ← combinePowerTerms A x.1
    let z := applyAlgebraicOptimizations A keep y
    if z.2 then .ok z else .ok (applyComparisonOptimizations A z.1)

/-- One evaluation of the condition of the second loop, expr.cpp:1469. -/
def pass2 [DecidableEq α] (twice : E α → Bool → Bool) (nan : α) (e : E α) : Res (E α × Bool) := do
  let x ← applyLocalOptimizations A nan e
  if x.2 then .ok x
  else
    let y ← applyStrengthReduction A twice x.1
    if y.2 then .ok y else applyOpFusion A y.1

/-- `while (pass) if (++num_passes > max_passes) throw`, expr.cpp:1464-1472. The number is what is left of
`max_passes`. -/
def passes (p : Rule α) : Nat → E α → Res (E α × Nat)
  | n, e => do
    let x ← p e
    if x.2 then
      match n with
      | 0 => .err "expression compilation did not complete"
      | n + 1 => passes p n x.1
    else .ok (x.1, n)

/-- The optimizations of `compile`, expr.cpp:1460-1473. -/
def optimize [DecidableEq α] (keep : α → α) (twice : E α → Bool → Bool) (nan : α) (e : E α) : Res (E α) := do
  let x ← passes (pass1 A keep nan) 1000 e
  let y ← passes (pass2 A twice nan) x.2 x.1
  .ok y.1

/-- `compile`, expr.cpp:1452-1527, with the default `optimize = true`. -/
def compile [DecidableEq α] (keep : α → α) (twice : E α → Bool → Bool) (nan : α) (e : E α) (m : Mem) (bits : Nat) :
    Res (List (Insn α)) := do
  let t ← optimize A keep twice nan e
  generate t m bits

end

end VS.Expr
