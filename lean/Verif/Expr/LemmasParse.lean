import Verif.Expr.Spec
import Verif.Expr.LemmasCode

/-! # Expr: parsing -/

namespace VS.Expr

variable {α : Type}

/-- Values of a stack of trees. -/
def vals (A : Arith α) (px : Mem → Nat → α) (s : List (E α)) : List α := s.map (fun e => e.eval A px)

theorem swapTop_vals (A : Arith α) (px : Mem → Nat → α) {k : Nat} {s : List (E α)} (h : k < s.length) :
    vals A px (swapTop k s) = (vals A px s)[k]'(by simpa [vals] using h) ::
      ((vals A px s).set k ((vals A px s)[0]'(by simp [vals]; omega))).drop 1 := by
  cases s with
  | nil => simp at h
  | cons x t =>
    unfold swapTop
    rw [List.getElem?_eq_getElem h]
    cases k with
    | zero => simp [vals]
    | succ k => simp [vals, List.map_set]

theorem parseStep_spec (A : Arith α) (px : Mem → Nat → α) (fmt : Nat → Mem) (n : Nat) (s : List (E α)) (t : Tok α) :
    (∃ s', parseStep fmt n s t = .ok s' ∧
      rpnStep A (fun i => px (fmt i) i) n t (vals A px s) = some (vals A px s')) ∨
    ((∃ m, parseStep fmt n s t = .err m) ∧ rpnStep A (fun i => px (fmt i) i) n t (vals A px s) = none) := by
  cases t with
  | clip i =>
    by_cases h : i < n
    · left
      refine ⟨.load none (fmt i) i :: s, ?_, ?_⟩
      · simp only [parseStep]; rw [if_neg (by omega)]
      · simp only [rpnStep, if_pos h]; rfl
    · right
      refine ⟨⟨_, by simp only [parseStep]; rw [if_pos (by omega)]⟩, ?_⟩
      simp only [rpnStep, if_neg h]
  | const a => exact Or.inl ⟨_, rfl, rfl⟩
  | un o =>
    cases s with
    | nil => exact Or.inr ⟨⟨_, rfl⟩, rfl⟩
    | cons x s => exact Or.inl ⟨_, rfl, rfl⟩
  | bin o =>
    match s with
    | [] => exact Or.inr ⟨⟨_, rfl⟩, rfl⟩
    | [x] => exact Or.inr ⟨⟨_, rfl⟩, rfl⟩
    | y :: x :: s => exact Or.inl ⟨_, rfl, rfl⟩
  | ternary =>
    match s with
    | [] => exact Or.inr ⟨⟨_, rfl⟩, rfl⟩
    | [x] => exact Or.inr ⟨⟨_, rfl⟩, rfl⟩
    | [y, x] => exact Or.inr ⟨⟨_, rfl⟩, rfl⟩
    | z :: y :: x :: s => exact Or.inl ⟨_, rfl, rfl⟩
  | dup k =>
    by_cases h : k < s.length
    · left
      refine ⟨s[k].clone :: s, ?_, ?_⟩
      · simp only [parseStep, List.getElem?_eq_getElem h]
      · have h' : k < (vals A px s).length := by simpa [vals] using h
        simp only [rpnStep, dif_pos h']
        simp [vals, eval_clone]
    · right
      have h' : ¬ k < (vals A px s).length := by simpa [vals] using h
      refine ⟨⟨"insufficient values on stack", ?_⟩, ?_⟩
      · simp only [parseStep, List.getElem?_eq_none (Nat.le_of_not_lt h)]
      · simp only [rpnStep, dif_neg h']
  | swap k =>
    by_cases h : k < s.length
    · left
      have h' : k < (vals A px s).length := by simpa [vals] using h
      refine ⟨swapTop k s, ?_, ?_⟩
      · simp only [parseStep]; rw [if_neg (by omega)]
      · simp only [rpnStep, dif_pos h']
        rw [swapTop_vals A px h]
    · right
      have h' : ¬ k < (vals A px s).length := by simpa [vals] using h
      refine ⟨⟨"insufficient values on stack", ?_⟩, ?_⟩
      · simp only [parseStep]; rw [if_pos (by omega)]
      · simp only [rpnStep, dif_neg h']

theorem decodeToken_res (num : List Char → Option α) (w : List Char) :
    (∃ t, decodeToken num w = .ok t) ∨ ∃ m, decodeToken num w = .err m := by
  unfold decodeToken
  split
  · exact Or.inl ⟨_, rfl⟩
  · split
    · split
      · exact Or.inl ⟨_, rfl⟩
      · split
        · exact Or.inl ⟨_, rfl⟩
        · exact Or.inr ⟨_, rfl⟩
    · split
      · split
        · exact Or.inl ⟨_, rfl⟩
        · exact Or.inr ⟨_, rfl⟩
      · split
        · split
          · exact Or.inl ⟨_, rfl⟩
          · exact Or.inr ⟨_, rfl⟩
        · split
          · exact Or.inl ⟨_, rfl⟩
          · exact Or.inr ⟨_, rfl⟩

theorem parseLoop_spec (A : Arith α) (px : Mem → Nat → α) (num : List Char → Option α) (fmt : Nat → Mem) (n : Nat)
    (ws : List (List Char)) : ∀ s : List (E α),
    (∃ s' ts, parseLoop num fmt n ws s = .ok s' ∧ tokensOf num ws = some ts ∧
      rpn A (fun i => px (fmt i) i) n ts (vals A px s) = some (vals A px s')) ∨
    ((∃ m, parseLoop num fmt n ws s = .err m) ∧
      ∀ ts, tokensOf num ws = some ts → rpn A (fun i => px (fmt i) i) n ts (vals A px s) = none) := by
  induction ws with
  | nil => intro s; exact Or.inl ⟨s, [], rfl, rfl, rfl⟩
  | cons w ws ih =>
    intro s
    rcases decodeToken_res num w with ⟨t, ht⟩ | ⟨m, hm⟩
    · rcases parseStep_spec A px fmt n s t with ⟨s', h1, h2⟩ | ⟨⟨m, h1⟩, h2⟩
      · have hp : parseLoop num fmt n (w :: ws) s = parseLoop num fmt n ws s' := by
          rw [parseLoop, ht]
          show (parseStep fmt n s t >>= _) = _
          rw [h1]; rfl
        rcases ih s' with ⟨s'', ts, g1, g2, g3⟩ | ⟨⟨m, g1⟩, g2⟩
        · refine Or.inl ⟨s'', t :: ts, hp.trans g1, ?_, ?_⟩
          · simp only [tokensOf, ht, g2]
          · simp only [rpn, h2, Option.bind_some, g3]
        · refine Or.inr ⟨⟨m, hp.trans g1⟩, fun ts hts => ?_⟩
          simp only [tokensOf, ht] at hts
          cases hw : tokensOf num ws with
          | none => rw [hw] at hts; cases hts
          | some ts' =>
            rw [hw] at hts; cases hts
            simp only [rpn, h2, Option.bind_some]
            exact g2 ts' hw
      · refine Or.inr ⟨⟨m, ?_⟩, fun ts hts => ?_⟩
        · rw [parseLoop, ht]
          show (parseStep fmt n s t >>= _) = _
          rw [h1]; rfl
        · simp only [tokensOf, ht] at hts
          cases hw : tokensOf num ws with
          | none => rw [hw] at hts; cases hts
          | some ts' =>
            rw [hw] at hts; cases hts
            simp only [rpn, h2, Option.bind_none]
    · refine Or.inr ⟨⟨m, by rw [parseLoop, hm]; rfl⟩, fun ts hts => ?_⟩
      simp only [tokensOf, hm] at hts
      cases hts

theorem tokenizeLoop_word (w : List Char) (hw : ∀ c ∈ w, isSpace c = false) : ∀ (t cur : List Char),
    tokenizeLoop (w ++ t) cur = tokenizeLoop t (cur ++ w) := by
  induction w with
  | nil => intro t cur; simp
  | cons c w ih =>
    intro t cur
    rw [List.cons_append, tokenizeLoop, hw c List.mem_cons_self]
    simp only [Bool.false_eq_true, if_false]
    rw [ih (fun c h => hw c (List.mem_cons_of_mem _ h))]
    simp

theorem tokenizeLoop_space (sp : List Char) (hs : ∀ c ∈ sp, isSpace c = true) (hne : sp ≠ []) : ∀ (t cur : List Char),
    tokenizeLoop (sp ++ t) cur = (if cur = [] then [] else [cur]) ++ tokenizeLoop t [] := by
  induction sp with
  | nil => exact absurd rfl hne
  | cons c sp ih =>
    intro t cur
    rw [List.cons_append, tokenizeLoop, hs c List.mem_cons_self]
    simp only [if_true]
    cases sp with
    | nil => rfl
    | cons c' sp' =>
      rw [ih (fun c h => hs c (List.mem_cons_of_mem _ h)) (by simp)]
      simp

end VS.Expr
