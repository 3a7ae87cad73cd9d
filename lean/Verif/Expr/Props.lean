import Verif.Expr.LemmasParse
import Verif.Expr.LemmasRun
import Verif.Expr.Rational

/-!
# Expr: properties

C51: the text of an expression means what reverse Polish notation says.
C52: the byte code computes the value of the tree, for every arithmetic.
C53: integer samples stay in their range.
-/

namespace VS.Expr

variable {α : Type}

/-! ## Words -/

/-- **C51.** The words of a text are the maximal runs of characters which are not white space: with any white space in
front of, between and behind the words, the same words are found. -/
theorem C51_words (sp0 : List Char) (l : List (List Char × List Char)) (h0 : ∀ c ∈ sp0, isSpace c = true)
    (hw : ∀ p ∈ l, p.1 ≠ [] ∧ (∀ c ∈ p.1, isSpace c = false) ∧ (∀ c ∈ p.2, isSpace c = true))
    (hs : ∀ p ∈ l.dropLast, p.2 ≠ []) :
    tokenize (sp0 ++ l.flatMap (fun p => p.1 ++ p.2)) = l.map Prod.fst := by
  have main : ∀ l : List (List Char × List Char),
      (∀ p ∈ l, p.1 ≠ [] ∧ (∀ c ∈ p.1, isSpace c = false) ∧ (∀ c ∈ p.2, isSpace c = true)) →
      (∀ p ∈ l.dropLast, p.2 ≠ []) →
      tokenizeLoop (l.flatMap (fun p => p.1 ++ p.2)) [] = l.map Prod.fst := by
    intro l
    induction l with
    | nil => intro _ _; rfl
    | cons p t ih =>
      intro hw hs
      obtain ⟨h1, h2, h3⟩ := hw p List.mem_cons_self
      rw [List.flatMap_cons, List.append_assoc, tokenizeLoop_word _ h2, List.nil_append]
      cases t with
      | nil =>
        by_cases he : p.2 = []
        · rw [he]; simp [tokenizeLoop, h1]
        · rw [tokenizeLoop_space _ h3 he]; simp [tokenizeLoop, h1]
      | cons q t =>
        rw [tokenizeLoop_space _ h3 (hs p (by simp))]
        rw [ih (fun p h => hw p (List.mem_cons_of_mem _ h)) (fun p h => hs p (by
          rw [List.dropLast_cons_of_ne_nil (by simp)]; exact List.mem_cons_of_mem _ h))]
        simp [h1]
  unfold tokenize
  by_cases he : sp0 = []
  · subst he; exact main l hw hs
  · rw [tokenizeLoop_space _ h0 he]
    simpa using main l hw hs

/-- Every text is of this form, so `C51_words` describes the words of every text. -/
theorem C51_words_all (s : List Char) : ∃ (sp0 : List Char) (l : List (List Char × List Char)),
    (∀ c ∈ sp0, isSpace c = true) ∧
    (∀ p ∈ l, p.1 ≠ [] ∧ (∀ c ∈ p.1, isSpace c = false) ∧ (∀ c ∈ p.2, isSpace c = true)) ∧
    (∀ p ∈ l.dropLast, p.2 ≠ []) ∧ s = sp0 ++ l.flatMap (fun p => p.1 ++ p.2) := by
  induction s with
  | nil => exact ⟨[], [], by simp, by simp, by simp, rfl⟩
  | cons c s ih =>
    obtain ⟨sp0, l, h0, hw, hs, he⟩ := ih
    cases hc : isSpace c with
    | true =>
      refine ⟨c :: sp0, l, ?_, hw, hs, by rw [he]; rfl⟩
      intro d hd
      rcases List.mem_cons.1 hd with rfl | hd
      · exact hc
      · exact h0 d hd
    | false =>
      cases sp0 with
      | nil =>
        cases l with
        | nil => exact ⟨[], [([c], [])], by simp, by simp [hc], by simp, by rw [he]; rfl⟩
        | cons p t =>
          refine ⟨[], (c :: p.1, p.2) :: t, by simp, ?_, ?_, by rw [he]; simp⟩
          · intro q hq
            obtain ⟨h1, h2, h3⟩ := hw p List.mem_cons_self
            rcases List.mem_cons.1 hq with rfl | hq
            · refine ⟨by simp, ?_, h3⟩
              intro d hd
              rcases List.mem_cons.1 hd with rfl | hd
              · exact hc
              · exact h2 d hd
            · exact hw q (List.mem_cons_of_mem _ hq)
          · intro q hq
            cases t with
            | nil => simp at hq
            | cons r t =>
              rw [List.dropLast_cons_of_ne_nil (by simp)] at hq
              rcases List.mem_cons.1 hq with rfl | hq
              · exact hs p (by simp)
              · exact hs q (by rw [List.dropLast_cons_of_ne_nil (by simp)]; exact List.mem_cons_of_mem _ hq)
      | cons d sp0 =>
        refine ⟨[], ([c], d :: sp0) :: l, by simp, ?_, ?_, by rw [he]; simp⟩
        · intro q hq
          rcases List.mem_cons.1 hq with rfl | hq
          · exact ⟨by simp, by simp [hc], h0⟩
          · exact hw q hq
        · intro q hq
          cases l with
          | nil => simp at hq
          | cons r t =>
            rw [List.dropLast_cons_of_ne_nil (by simp)] at hq
            rcases List.mem_cons.1 hq with rfl | hq
            · simp
            · exact hs q hq

example : tokenize "  x 128\t-\n".toList = ["x".toList, "128".toList, "-".toList] := by decide +kernel

/-! ## Tokens -/

/-- Number written with decimal digits. -/
def decimalValue (ds : List Char) : Nat := ds.foldl (fun a c => 10 * a + (c.toNat - 48)) 0

/-- **C51.** Clips are `x y z a b c ... w`. -/
theorem C51_clips (num : List Char → Option α) (i : Nat) (h : i < 26) :
    decodeToken num ["xyzabcdefghijklmnopqrstuvw".toList[i]!] = .ok (.clip i) := by
  have : ∀ i : Fin 26, (simple (α := α)).find? (fun e => e.1.toList == ["xyzabcdefghijklmnopqrstuvw".toList[i.val]!]) = none ∧
      'a' ≤ "xyzabcdefghijklmnopqrstuvw".toList[i.val]! ∧ "xyzabcdefghijklmnopqrstuvw".toList[i.val]! ≤ 'z' ∧
      (if 'x' ≤ "xyzabcdefghijklmnopqrstuvw".toList[i.val]! then "xyzabcdefghijklmnopqrstuvw".toList[i.val]!.toNat - 120
        else "xyzabcdefghijklmnopqrstuvw".toList[i.val]!.toNat - 97 + 3) = i.val := by
    intro i
    refine ⟨?_, ?_⟩
    · rw [List.find?_eq_none]
      intro p hp
      have h1 : p.1 ∈ (simple (α := α)).map Prod.fst := List.mem_map_of_mem hp
      have h2 : (simple (α := α)).map Prod.fst = (simple (α := Unit)).map Prod.fst := rfl
      rw [h2] at h1
      have h3 : ∀ j : Fin 26, ∀ s ∈ (simple (α := Unit)).map Prod.fst,
          ¬ (s.toList == ["xyzabcdefghijklmnopqrstuvw".toList[j.val]!]) = true := by decide +kernel
      exact h3 i _ h1
    · revert i; decide +kernel
  obtain ⟨h1, h2, h3, h4⟩ := this ⟨i, h⟩
  unfold decodeToken
  simp only at h1 h2 h3 h4
  rw [h1]
  simp only
  rw [if_pos ⟨h2, h3⟩, h4]

theorem digits_all (ds : List Char) (h : ∀ c ∈ ds, c.isDigit = true) : ∀ a : Nat,
    (digits ds).2 = [] ∧ ds.foldl (fun a c => 10 * a + (c.toNat - 48)) a = a * 10 ^ ds.length + (digits ds).1 := by
  induction ds with
  | nil => intro a; simp [digits]
  | cons c t ih =>
    intro a
    have hc := h c List.mem_cons_self
    have ih := ih (fun c h' => h c (List.mem_cons_of_mem _ h'))
    unfold digits
    rw [if_pos hc]
    refine ⟨(ih 0).1, ?_⟩
    rw [List.foldl_cons, (ih _).2]
    simp only [(ih 0).1, List.length_nil, Nat.sub_zero, List.length_cons, Nat.pow_succ]
    rw [Nat.add_mul, Nat.add_assoc]
    congr 1
    rw [Nat.mul_comm 10 a, Nat.mul_assoc, Nat.mul_comm 10]

theorem stackIndex_digits (ds : List Char) (h : ∀ c ∈ ds, c.isDigit = true) (hne : ds ≠ []) :
    stackIndex ds = if decimalValue ds ≤ 2147483647 then some (decimalValue ds) else none := by
  obtain ⟨h1, h2⟩ := digits_all ds h 0
  have hv : decimalValue ds = (digits ds).1 := by unfold decimalValue; rw [h2]; simp
  cases ds with
  | nil => exact absurd rfl hne
  | cons c t =>
    have hc : c ≠ '-' := by rintro rfl; exact absurd (h _ List.mem_cons_self) (by decide)
    unfold stackIndex
    split
    · cases ‹c :: t = []›
    · rename_i he
      cases he
      exact absurd rfl hc
    · simp only [h1, hv, true_and]

theorem simple_none (num : List Char → Option α) (t : List Char) (c : Char) (hc : c.isDigit = true) (ht : c ∈ t) :
    (simple (α := α)).find? (fun e => e.1.toList == t) = none := by
  rw [List.find?_eq_none]
  intro p hp
  have h1 : p.1 ∈ (simple (α := α)).map Prod.fst := List.mem_map_of_mem hp
  have h2 : (simple (α := α)).map Prod.fst = (simple (α := Unit)).map Prod.fst := rfl
  rw [h2] at h1
  have h3 : ∀ s ∈ (simple (α := Unit)).map Prod.fst, ∀ c ∈ s.toList, c.isDigit = false := by decide +kernel
  intro he
  have := h3 _ h1 c (by rw [beq_iff_eq.1 he]; exact ht)
  rw [hc] at this
  exact absurd this (by simp)

/-- **C51.** `dupN` and `swapN` take every number of type `int`, larger ones are refused. -/
theorem C51_dup_swap (num : List Char → Option α) (ds : List Char) (h : ∀ c ∈ ds, c.isDigit = true) (hne : ds ≠ []) :
    decodeToken num ("dup".toList ++ ds) =
      (if decimalValue ds ≤ 2147483647 then .ok (.dup (decimalValue ds)) else .err "illegal token") ∧
    decodeToken num ("swap".toList ++ ds) =
      (if decimalValue ds ≤ 2147483647 then .ok (.swap (decimalValue ds)) else .err "illegal token") := by
  obtain ⟨c, hc⟩ := List.exists_mem_of_ne_nil _ hne
  have hd := h c hc
  have e1 : "dup".toList = ['d', 'u', 'p'] := by decide
  have e2 : "swap".toList = ['s', 'w', 'a', 'p'] := by decide
  rw [e1, e2]
  constructor
  · unfold decodeToken
    rw [simple_none num _ c hd (by simp [hc])]
    simp only [List.cons_append, List.nil_append, List.take_succ_cons, List.take_zero, List.drop_succ_cons,
      List.drop_zero, if_true]
    rw [stackIndex_digits ds h hne]
    by_cases hv : decimalValue ds ≤ 2147483647
    · simp only [if_pos hv]
    · simp only [if_neg hv]
  · unfold decodeToken
    rw [simple_none num _ c hd (by simp [hc])]
    simp only [List.cons_append, List.nil_append, List.take_succ_cons, List.take_zero, List.drop_succ_cons,
      List.drop_zero, if_true]
    rw [if_neg (by simp)]
    rw [stackIndex_digits ds h hne]
    by_cases hv : decimalValue ds ≤ 2147483647
    · simp only [if_pos hv]
    · simp only [if_neg hv]

theorem digits_rest (s : List Char) (h : ∃ c ∈ s, c.isDigit = false) : (digits s).2 ≠ [] := by
  induction s with
  | nil => obtain ⟨c, hc, _⟩ := h; exact absurd hc (by simp)
  | cons a t ih =>
    unfold digits
    split
    · rename_i ha
      obtain ⟨c, hc, hd⟩ := h
      rcases List.mem_cons.1 hc with rfl | hc
      · rw [ha] at hd; exact absurd hd (by simp)
      · exact ih ⟨c, hc, hd⟩
    · simp

theorem simple_long (t : List Char) (h : t.take 3 = ['d', 'u', 'p'] ∧ 3 < t.length ∨ t.take 4 = ['s', 'w', 'a', 'p'] ∧ 4 < t.length) :
    (simple (α := α)).find? (fun e => e.1.toList == t) = none := by
  rw [List.find?_eq_none]
  intro p hp
  have h1 : p.1 ∈ (simple (α := α)).map Prod.fst := List.mem_map_of_mem hp
  have h2 : (simple (α := α)).map Prod.fst = (simple (α := Unit)).map Prod.fst := rfl
  rw [h2] at h1
  have h3 : ∀ s ∈ (simple (α := Unit)).map Prod.fst, ¬ (s.toList.take 3 = ['d', 'u', 'p'] ∧ 3 < s.toList.length ∨
    s.toList.take 4 = ['s', 'w', 'a', 'p'] ∧ 4 < s.toList.length) := by decide +kernel
  intro he
  exact h3 _ h1 (by rw [beq_iff_eq.1 he]; exact h)

/-- **C51.** `dup` and `swap` followed by anything that is no number are refused (`-` apart: `dup-0` is accepted). -/
theorem C51_dup_swap_refused (num : List Char → Option α) (s : List Char) (h : ∃ c ∈ s, c.isDigit = false) (hm : s.head? ≠ some '-') :
    (∃ m, decodeToken num ("dup".toList ++ s) = .err m) ∧ ∃ m, decodeToken num ("swap".toList ++ s) = .err m := by
  have hne : s ≠ [] := by rintro rfl; obtain ⟨c, hc, _⟩ := h; exact absurd hc (by simp)
  have hl : 0 < s.length := List.length_pos_iff.2 hne
  have hidx : stackIndex s = none := by
    unfold stackIndex
    split
    · rfl
    · exact absurd rfl hm
    · simp only [digits_rest s h, false_and, if_false]
  have e1 : "dup".toList = ['d', 'u', 'p'] := by decide
  have e2 : "swap".toList = ['s', 'w', 'a', 'p'] := by decide
  rw [e1, e2]
  constructor
  · unfold decodeToken
    rw [simple_long _ (Or.inl ⟨by simp, by simp; omega⟩)]
    simp only [List.cons_append, List.nil_append, List.take_succ_cons, List.take_zero, List.drop_succ_cons,
      List.drop_zero, if_true, hidx]
    exact ⟨_, rfl⟩
  · unfold decodeToken
    rw [simple_long _ (Or.inr ⟨by simp, by simp; omega⟩)]
    simp only [List.cons_append, List.nil_append, List.take_succ_cons, List.take_zero, List.drop_succ_cons,
      List.drop_zero, if_true, hidx]
    rw [if_neg (by simp)]
    exact ⟨_, rfl⟩

example : (∃ c ∈ "1x".toList, c.isDigit = false) ∧ "1x".toList.head? ≠ some '-' := by decide

/-- **C51.** The characters between words: space, tab, line feed, vertical tab, form feed and carriage return. -/
theorem C51_spaces (c : Char) : isSpace c = true ↔ c.toNat = 32 ∨ c.toNat = 9 ∨ c.toNat = 10 ∨ c.toNat = 11 ∨ c.toNat = 12 ∨ c.toNat = 13 := by
  unfold isSpace
  have h1 : c = ' ' ↔ c.toNat = 32 := ⟨fun h => by rw [h]; rfl, fun h => Char.toNat_inj.1 h⟩
  have h2 : '\t' ≤ c ↔ 9 ≤ c.toNat := Iff.rfl
  have h3 : c ≤ '\r' ↔ c.toNat ≤ 13 := Iff.rfl
  simp only [Bool.or_eq_true, beq_iff_eq, Bool.and_eq_true, decide_eq_true_eq, h1, h2, h3]
  omega

example : isSpace '\r' = true ∧ isSpace 'x' = false := by decide

example : decodeToken ratNum "dup12".toList = .ok (.dup 12) := by decide +kernel
example : decodeToken ratNum "w".toList = .ok (.clip 25) := by decide +kernel

/-- **C51.** The names of the operators. -/
theorem C51_operators (num : List Char → Option α) :
    [decodeToken num "+".toList, decodeToken num "-".toList, decodeToken num "*".toList, decodeToken num "/".toList,
      decodeToken num "max".toList, decodeToken num "min".toList, decodeToken num "pow".toList,
      decodeToken num "and".toList, decodeToken num "or".toList, decodeToken num "xor".toList,
      decodeToken num ">".toList, decodeToken num "<".toList, decodeToken num "=".toList,
      decodeToken num ">=".toList, decodeToken num "<=".toList] =
    ([.add, .sub, .mul, .div, .max, .min, .pow, .and, .or, .xor, .cmp .nle, .cmp .lt, .cmp .eq, .cmp .nlt,
      .cmp .le] : List Bin).map (fun o => Res.ok (Tok.bin o)) ∧
    [decodeToken num "exp".toList, decodeToken num "log".toList, decodeToken num "sqrt".toList,
      decodeToken num "abs".toList, decodeToken num "not".toList, decodeToken num "sin".toList,
      decodeToken num "cos".toList] =
    ([.exp, .log, .sqrt, .abs, .not, .sin, .cos] : List Un).map (fun o => Res.ok (Tok.un o)) ∧
    decodeToken num "?".toList = .ok .ternary ∧ decodeToken num "dup".toList = .ok (.dup 0) ∧
    decodeToken num "swap".toList = .ok (.swap 1) := by
  refine ⟨by simp [decodeToken, simple], by simp [decodeToken, simple], by simp [decodeToken, simple],
    by simp [decodeToken, simple], by simp [decodeToken, simple]⟩

/-! ## Values -/

/-- **C51.** An accepted expression is a sequence of tokens for which a stack machine ends with exactly one number, and
the value of the expression is this number: for all samples and for every arithmetic. -/
theorem C51_value {num : List Char → Option α} {fmt : Nat → Mem} {n : Nat} {s : List Char} {e : E α}
    (h : parseExpr num fmt n s = .ok e) (A : Arith α) (px : Mem → Nat → α) :
    ∃ ts, tokensOf num (tokenize s) = some ts ∧
      rpn A (fun i => px (fmt i) i) n ts [] = some [e.eval A px] := by
  rcases parseLoop_spec A px num fmt n (tokenize s) [] with ⟨s', ts, h1, h2, h3⟩ | ⟨⟨m, h1⟩, _⟩
  · refine ⟨ts, h2, ?_⟩
    unfold parseExpr at h
    rw [h1] at h
    rw [show ([] : List α) = vals A px [] from rfl, h3]
    match s', h with
    | [], h => cases h
    | [e'], h => cases h; rfl
    | _ :: _ :: _, h => cases h
  · unfold parseExpr at h
    rw [h1] at h
    cases h

/-- **C51.** Every other text is refused with an error message: no text makes the parser read outside of its stack. -/
theorem C51_refused {num : List Char → Option α} {fmt : Nat → Mem} {n : Nat} {s : List Char}
    (h : ∀ e, parseExpr num fmt n s ≠ .ok e) (A : Arith α) (px : Mem → Nat → α) :
    (∃ m, parseExpr num fmt n s = .err m) ∧
    ∀ ts, tokensOf num (tokenize s) = some ts → ∀ v, rpn A (fun i => px (fmt i) i) n ts [] ≠ some [v] := by
  rcases parseLoop_spec A px num fmt n (tokenize s) [] with ⟨s', ts, h1, h2, h3⟩ | ⟨⟨m, h1⟩, h2⟩
  · match s', h1, h3 with
    | [], h1, h3 =>
      refine ⟨⟨"empty expression", by unfold parseExpr; rw [h1]; rfl⟩, fun ts' h' v => ?_⟩
      rw [h2] at h'; cases h'
      rw [show ([] : List α) = vals A px [] from rfl, h3]
      simp [vals]
    | [e'], h1, _ => exact absurd (by unfold parseExpr; rw [h1]; rfl) (h e')
    | a :: b :: t, h1, h3 =>
      refine ⟨⟨"unconsumed values on stack", by unfold parseExpr; rw [h1]; rfl⟩, fun ts' h' v => ?_⟩
      rw [h2] at h'; cases h'
      rw [show ([] : List α) = vals A px [] from rfl, h3]
      simp [vals]
  · refine ⟨⟨m, by unfold parseExpr; rw [h1]; rfl⟩, fun ts h' v => ?_⟩
    rw [show ([] : List α) = vals A px [] from rfl, h2 ts h']
    simp

/-- The clip with 8 bit samples of value 100 and 50. -/
def px2 : Mem → Nat → Rat := fun _ c => if c = 0 then 100 else 50

example : (match parseExpr ratNum (fun _ => .u8) 2 "x y - dup 0 > swap 0 ?".toList with
    | .ok e => e.eval ratArith px2 | _ => -1) = 50 := by decide +kernel
example : parseExpr ratNum (fun _ => .u8) 2 "x z +".toList = .err "reference to undefined clip" := by decide +kernel
example : parseExpr ratNum (fun _ => .u8) 2 "x +".toList = .err "insufficient values on stack" := by decide +kernel
example : parseExpr ratNum (fun _ => .u8) 2 "x y".toList = .err "unconsumed values on stack" := by decide +kernel
example : parseExpr ratNum (fun _ => .u8) 2 "x swap3".toList = .err "insufficient values on stack" := by decide +kernel

/-! ## Byte code -/

/-- **C52.** The byte code of a tree stores the value of the tree, whatever the registers contain before: sharing of
equal subtrees and reuse of registers make no difference, no register outside of the vector is touched and every
register is written before it is read. This holds for every arithmetic, so in particular bit by bit for floating point
numbers. -/
theorem C52_code [DecidableEq α] (A : Arith α) (px : Mem → Nat → α) (e : E α) (m : Mem) (bits : Nat) :
    ∃ code, generate e m bits = .ok code ∧ ∀ regs : List α, regs.length = numRegs code →
      ∃ regs', run A px code regs = .ok (storeVal A m (if m = .u16 then bits else 0) (e.eval A px), regs') ∧
        regs'.length = numRegs code :=
  generate_run A px e m bits

/-- All pixels of a row: the interpreter keeps its registers from one pixel to the next,
exprfilter.cpp:223-231. -/
def runRow (A : Arith α) (code : List (Insn α)) : List (Mem → Nat → α) → List α → Res (List (Out α))
  | [], _ => .ok []
  | px :: rest, regs => do
    let r ← run A px code regs
    let t ← runRow A code rest r.2
    .ok (r.1 :: t)

/-- **C52.** Without optimization: from the text to a row of output samples. Each sample is what the stack machine
computes from the input samples at the same place. -/
theorem C52_row [DecidableEq α] {num : List Char → Option α} {fmt : Nat → Mem} {n : Nat} {s : List Char} {e : E α}
    (h : parseExpr num fmt n s = .ok e) (A : Arith α) (m : Mem) (bits : Nat) :
    ∃ code, generate e m bits = .ok code ∧ ∀ (row : List (Mem → Nat → α)) (regs : List α),
      regs.length = numRegs code → ∃ out, runRow A code row regs = .ok out ∧ out.length = row.length ∧
        ∀ i (hi : i < row.length), ∃ ts v, tokensOf num (tokenize s) = some ts ∧
          rpn A (fun c => row[i] (fmt c) c) n ts [] = some [v] ∧
          out[i]? = some (storeVal A m (if m = .u16 then bits else 0) v) := by
  cases hg : generate e m bits with
  | ok code =>
    refine ⟨code, rfl, ?_⟩
    have step : ∀ (px : Mem → Nat → α) (regs : List α), regs.length = numRegs code →
        ∃ regs', run A px code regs = .ok (storeVal A m (if m = .u16 then bits else 0) (e.eval A px), regs') ∧
          regs'.length = numRegs code := by
      intro px
      obtain ⟨code', h1, h2⟩ := C52_code A px e m bits
      rw [hg] at h1
      cases h1
      exact h2
    intro row
    induction row with
    | nil => intro regs _; exact ⟨[], rfl, rfl, fun i hi => absurd hi (by simp)⟩
    | cons px row ih =>
      intro regs hr
      obtain ⟨regs', h1, h2⟩ := step px regs hr
      obtain ⟨out, h3, h4, h5⟩ := ih regs' h2
      refine ⟨_ :: out, by unfold runRow; rw [h1]; simp only [Res.bind_ok, h3]; rfl, by simp [h4], ?_⟩
      intro i hi
      cases i with
      | zero =>
        obtain ⟨ts, h6, h7⟩ := C51_value h A px
        exact ⟨ts, _, h6, h7, rfl⟩
      | succ i =>
        simpa using h5 i (by simpa using hi)
  | err x => obtain ⟨c, h1, _⟩ := C52_code A (fun _ _ => A.half) e m bits; rw [hg] at h1; cases h1
  | fatal x => obtain ⟨c, h1, _⟩ := C52_code A (fun _ _ => A.half) e m bits; rw [hg] at h1; cases h1
  | ub => obtain ⟨c, h1, _⟩ := C52_code A (fun _ _ => A.half) e m bits; rw [hg] at h1; cases h1

example : (match parseExpr ratNum (fun _ => .u8) 2 "x y + x y + * 3 /".toList with
    | .ok e => (match generate e .u16 10 with
      | .ok code => (code.length, numRegs code, match runRow ratArith code [px2, fun _ _ => 1] [7, 7] with
        | .ok o => o | _ => [])
      | _ => (0, 0, []))
    | _ => (0, 0, [])) = (7, 2, [.int 1023, .int 1]) := by decide +kernel

/-! ## Range of the output -/

/-- What is used about comparison and rounding; `A.le x x` excludes NaN. -/
structure Ordered (A : Arith α) : Prop where
  total : ∀ x y, A.le x x = true → A.le y y = true → A.lt x y = true ∨ A.le y x = true
  irrefl : ∀ x y, A.lt x y = true → A.le y x = false
  weak : ∀ x y, A.lt x y = true → A.le x y = true
  mono : ∀ x y, A.le x y = true → A.lrint x ≤ A.lrint y
  exact : ∀ n, A.lrint (A.ofInt n) = n
  ints : ∀ n k : Int, n ≤ k → A.le (A.ofInt n) (A.ofInt k) = true

/-- **C53.** Integer samples are between 0 and the largest value of the depth, for every value but NaN. Values in
between are rounded to an integer, smaller ones become 0 and larger ones the largest value. -/
theorem C53_range (A : Arith α) (ho : Ordered A) (x : α) (hx : A.le x x = true) (depth : Nat) :
    0 ≤ clampInt A x depth ∧ clampInt A x depth ≤ 2 ^ depth - 1 ∧
    (A.le x (A.ofInt 0) = true → clampInt A x depth = 0) ∧
    (A.le (A.ofInt (2 ^ depth - 1)) x = true → clampInt A x depth = 2 ^ depth - 1) ∧
    (A.le (A.ofInt 0) x = true → A.le x (A.ofInt (2 ^ depth - 1)) = true → clampInt A x depth = A.lrint x) := by
  have hM : (0 : Int) ≤ 2 ^ depth - 1 := by
    have : (0 : Int) < 2 ^ depth := Int.pow_pos (by decide)
    omega
  generalize hMd : (2 : Int) ^ depth - 1 = M at *
  have h00 := ho.ints 0 0 (Int.le_refl _)
  have h0M := ho.ints 0 M hM
  have hMM := ho.ints M M (Int.le_refl _)
  have l0 := ho.exact 0
  have lM := ho.exact M
  unfold clampInt Arith.min Arith.max
  rw [hMd]
  by_cases h1 : A.lt x (A.ofInt 0) = true
  · simp only [if_pos h1]
    have hn : ¬ A.lt (A.ofInt M) (A.ofInt 0) = true := by
      intro h; rw [ho.irrefl _ _ h] at h0M; cases h0M
    simp only [if_neg hn, l0]
    refine ⟨Int.le_refl _, hM, fun _ => trivial, fun h => ?_, fun h => ?_⟩
    · have := ho.mono _ _ h
      have := ho.mono _ _ (ho.weak _ _ h1)
      omega
    · rw [ho.irrefl _ _ h1] at h; cases h
  · simp only [if_neg h1]
    have h2 : A.le (A.ofInt 0) x = true := (ho.total _ _ hx h00).resolve_left h1
    have := ho.mono _ _ h2
    by_cases h3 : A.lt (A.ofInt M) x = true
    · simp only [if_pos h3, lM]
      refine ⟨hM, Int.le_refl _, fun h => ?_, fun _ => trivial, fun _ h => ?_⟩
      · have := ho.mono _ _ h
        have := ho.mono _ _ (ho.weak _ _ h3)
        omega
      · rw [ho.irrefl _ _ h3] at h; cases h
    · simp only [if_neg h3]
      have h4 : A.le x (A.ofInt M) = true := (ho.total _ _ hMM hx).resolve_left h3
      have := ho.mono _ _ h4
      refine ⟨by omega, by omega, fun h => ?_, fun h => ?_, fun _ _ => trivial⟩
      · have := ho.mono _ _ h; omega
      · have := ho.mono _ _ h; omega

/-- **C53.** What is stored for integer formats fits the format: 8 bit samples lie between 0 and 255, others between 0 and
the largest value of their depth. -/
theorem C53_stored (A : Arith α) (ho : Ordered A) (x : α) (hx : A.le x x = true) (bits : Nat) :
    (∃ v, storeVal A .u8 bits x = .int v ∧ 0 ≤ v ∧ v ≤ 255) ∧ ∃ v, storeVal A .u16 bits x = .int v ∧ 0 ≤ v ∧ v ≤ 2 ^ bits - 1 := by
  obtain ⟨a1, a2, _⟩ := C53_range A ho x hx 8
  obtain ⟨b1, b2, _⟩ := C53_range A ho x hx bits
  exact ⟨⟨_, rfl, a1, a2⟩, _, rfl, b1, b2⟩

/-- Rounding of rational numbers. -/
theorem lrint_def (x : Rat) : ratArith.lrint x =
    if ((x + 1 / 2).floor : Rat) = x + 1 / 2 ∧ (x + 1 / 2).floor % 2 = 1 then (x + 1 / 2).floor - 1
    else (x + 1 / 2).floor := rfl

example : Ordered ratArith where
  total x y _ _ := by simp [ratArith]; grind
  irrefl x y := by simp only [ratArith, decide_eq_true_eq, decide_eq_false_iff_not]; grind
  weak x y := by simp [ratArith]; grind
  mono x y h := by
    have h : x ≤ y := by simpa [ratArith] using h
    rw [lrint_def, lrint_def]
    by_cases hxy : x = y
    · rw [hxy]; exact Int.le_refl _
    · have hf : (x + 1 / 2).floor ≤ (y + 1 / 2).floor := Rat.floor_monotone (by grind)
      have hx : ((x + 1 / 2).floor : Rat) ≤ x + 1 / 2 := Rat.floor_le _
      by_cases hy : ((y + 1 / 2).floor : Rat) = y + 1 / 2 ∧ (y + 1 / 2).floor % 2 = 1
      · have : (x + 1 / 2).floor < (y + 1 / 2).floor := Rat.intCast_lt_intCast.1 (by grind)
        rw [if_pos hy]
        split <;> omega
      · rw [if_neg hy]
        split <;> omega
  exact n := by
    rw [lrint_def]
    have h1 : (((n : Rat) + 1 / 2).floor : Rat) ≤ n + 1 / 2 := Rat.floor_le _
    have h2 : (n : Rat) + 1 / 2 - 1 < (((n : Rat) + 1 / 2).floor : Rat) := Rat.lt_floor
    have h3 : ((n : Rat) + 1 / 2).floor < n + 1 := Rat.intCast_lt_intCast.1 (by rw [Rat.intCast_add]; grind)
    have h4 : n - 1 < ((n : Rat) + 1 / 2).floor := Rat.intCast_lt_intCast.1 (by rw [Rat.intCast_sub]; grind)
    have h5 : ((n : Rat) + 1 / 2).floor = n := by omega
    rw [if_neg]
    · exact h5
    · rintro ⟨h6, _⟩
      replace h6 : (((n : Rat) + 1 / 2).floor : Rat) = (n : Rat) + 1 / 2 := h6
      rw [h5] at h6
      grind
  ints n k h := by simpa [ratArith] using Rat.intCast_le_intCast.2 h

end VS.Expr
