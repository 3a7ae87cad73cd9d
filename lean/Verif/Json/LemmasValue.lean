import Verif.Json.Lemmas

/-!
# Reading back what is written: values, arrays, objects
-/

namespace VS.Json

theorem skip_skip (t : List Nat) : skip (skip t) = skip t := by
  unfold skip
  induction t with
  | nil => rfl
  | cons c t ih =>
    simp only [List.dropWhile_cons]
    split
    · exact ih
    · rename_i h; simp [h]

theorem value_skip (n : Nat) (t : List Nat) : value n t = value n (skip t) := by
  cases n with
  | zero => rfl
  | succ n => rw [value, value, skip_skip]

theorem members_skip (n : Nat) (t : List Nat) : members n t = members n (skip t) := by
  cases n with
  | zero => rfl
  | succ n => rw [members, members, skip_skip]

theorem value_space (n : Nat) (t : List Nat) : value n (32 :: t) = value n t := by
  rw [value_skip, value_skip n t]; rfl

theorem members_space (n : Nat) (t : List Nat) : members n (32 :: t) = members n t := by
  rw [members_skip, members_skip n t]; rfl

theorem elements_ws (n : Nat) (c : Nat) (t : List Nat) (h : isWs c = true) : elements n (c :: t) = elements n t := by
  cases n with
  | zero => rfl
  | succ n =>
    have e : value n (c :: t) = value n t := by
      rw [value_skip, value_skip n t]
      congr 1
      unfold skip
      rw [List.dropWhile_cons_of_pos h]
    rw [elements, elements, e]

/-- The text is read as the value whatever comes after it. -/
def Reads (t : List Nat) (v : Json) : Prop :=
  ∀ (n : Nat) (r : List Nat), 2 * t.length + 1 ≤ n → Ends r → value n (t ++ r) = some (v, r)

theorem skip_cons {c : Nat} (t : List Nat) (h : isWs c = false) : skip (c :: t) = c :: t := by
  unfold skip; rw [List.dropWhile_cons_of_neg (by simp [h])]

theorem reads_str {s : List Nat} (h : IsUtf8 s) : Reads (escapeString s) (.str s) := by
  intro n r hn _
  cases n with
  | zero => omega
  | succ n =>
    have e : escapeString s ++ r = 34 :: (s.flatMap escByte ++ 34 :: r) := by simp [escapeString]
    rw [e, value]
    simp only [skip_cons _ (show isWs 34 = false by decide), List.head?_cons, List.tail_cons]
    rw [if_neg (by decide), if_neg (by decide), if_pos trivial, chars_string h _ _ (by simp only [List.length_append, List.length_cons]; omega)]
    rfl

theorem reads_num {neg : Bool} {i f : List Nat} (h : Digits i f) :
    Reads (numText neg i f) (.num ⟨neg, digits i, f, none⟩) := by
  intro n r hn hr
  cases n with
  | zero => omega
  | succ n =>
    have hne : ∃ c t, numText neg i f = c :: t ∧ (c = 45 ∨ isDigit c = true) := by
      cases hi : i with
      | nil => exact absurd hi h.1
      | cons a i' =>
        cases neg
        · exact ⟨a, _, by simp [numText]; rfl, .inr (h.2.1 a (by rw [hi]; simp))⟩
        · exact ⟨45, _, by simp [numText]; rfl, .inl rfl⟩
    obtain ⟨c, t, hc, hc'⟩ := hne
    have hb : isWs c = false ∧ c ≠ 123 ∧ c ≠ 91 ∧ c ≠ 34 ∧ c ≠ 110 ∧ c ≠ 116 ∧ c ≠ 102 := by
      have : c = 45 ∨ (48 ≤ c ∧ c ≤ 57) := by simpa [isDigit] using hc'
      refine ⟨?_, ?_⟩
      · simp [isWs]; omega
      · omega
    have hs : skip (numText neg i f ++ r) = numText neg i f ++ r := by
      rw [hc]; exact skip_cons _ hb.1
    have hh : (numText neg i f ++ r).head? = some c := by rw [hc]; rfl
    rw [value]
    simp only [hs, hh, Option.some.injEq]
    obtain ⟨-, b1, b2, b3, b4, b5, b6⟩ := hb
    rw [if_neg b1, if_neg b2, if_neg b3, if_neg b4, if_neg b5, if_neg b6, number_text h hr]
    rfl

theorem reads_null : Reads (asc "null") .null := by
  intro n r hn _
  cases n with
  | zero => omega
  | succ n =>
    rw [show asc "null" = [110, 117, 108, 108] by decide, value]
    simp only [List.cons_append, List.nil_append, skip_cons _ (show isWs 110 = false by decide), List.head?_cons]
    rw [if_neg (by decide), if_neg (by decide), if_neg (by decide), if_pos trivial]
    rfl

theorem Ends.skip {r : List Nat} (c : Nat) (h : c = 44 ∨ c = 93 ∨ c = 125) : Ends (c :: r) ∧ skip (c :: r) = c :: r := by
  rcases h with h | h | h <;> subst h
  · exact ⟨.inr (.inl rfl), skip_cons _ (by decide)⟩
  · exact ⟨.inr (.inr (.inl rfl)), skip_cons _ (by decide)⟩
  · exact ⟨.inr (.inr (.inr (.inl rfl))), skip_cons _ (by decide)⟩

/-- Texts with commas before them. -/
def commas (l : List (List Nat)) : List Nat := l.flatMap (fun t => asc ", " ++ t)

theorem elements_text (l : List (List Nat × Json)) : ∀ (a : List Nat) (v : Json), Reads a v → (∀ p ∈ l, Reads p.1 p.2) →
    ∀ (n : Nat) (r : List Nat), 2 * (a ++ commas (l.map (·.1))).length + 3 ≤ n →
    elements n (a ++ commas (l.map (·.1)) ++ 93 :: r) = some (v :: l.map (·.2), r) := by
  induction l with
  | nil =>
    intro a v ha _ n r hn
    cases n with
    | zero => omega
    | succ n =>
      simp only [List.map_nil, commas, List.flatMap_nil, List.append_nil] at hn ⊢
      obtain ⟨h1, h2⟩ := Ends.skip (r := r) 93 (by simp)
      rw [elements, ha n _ (by omega) h1]
      simp [h2]
  | cons p l ih =>
    intro a v ha hl n r hn
    cases n with
    | zero => omega
    | succ n =>
      have e : commas ((p :: l).map (·.1)) = 44 :: 32 :: (p.1 ++ commas (l.map (·.1))) := by
        simp [commas, show asc ", " = [44, 32] by decide]
      rw [e] at hn ⊢
      simp only [List.append_assoc, List.cons_append, List.length_append, List.length_cons] at hn ⊢
      obtain ⟨h1, h2⟩ := Ends.skip (r := 32 :: (p.1 ++ (commas (l.map (·.1)) ++ 93 :: r))) 44 (by simp)
      rw [elements, ha n _ (by omega) h1]
      simp only [Option.bind_eq_bind, Option.bind_some, h2, List.head?_cons, if_true, List.tail_cons]
      rw [elements_ws _ _ _ (by decide), ← List.append_assoc]
      rw [ih p.1 p.2 (hl p (by simp)) (fun q hq => hl q (by simp [hq])) n r (by simp; omega)]
      simp

theorem reads_arr {a : List Nat} {v : Json} (ha : Reads a v) {l : List (List Nat × Json)} (hl : ∀ p ∈ l, Reads p.1 p.2)
    (hb : ∀ r, (skip (a ++ r)).head? ≠ some 93) :
    Reads (asc "[" ++ (a ++ commas (l.map (·.1))) ++ asc "]") (.arr (v :: l.map (·.2))) := by
  intro n r hn _
  cases n with
  | zero => omega
  | succ n =>
    simp only [show asc "[" = [91] by decide, show asc "]" = [93] by decide, List.cons_append, List.nil_append,
      List.append_assoc, List.length_append, List.length_cons, List.length_nil] at hn ⊢
    rw [value]
    simp only [skip_cons _ (show isWs 91 = false by decide), List.head?_cons, List.tail_cons]
    rw [if_neg (by decide), if_pos trivial, if_neg (hb _), ← List.append_assoc]
    rw [elements_text l a v ha hl n r (by simp; omega)]
    rfl

/-- One member of an object. -/
def memberText (k : List Nat) (t : List Nat) : List Nat := escapeString k ++ asc ": " ++ t

theorem members_one {k : List Nat} (hk : IsUtf8 k) {a : List Nat} {v : Json} (ha : Reads a v) {n : Nat} {r : List Nat}
    (hn : 2 * a.length + 1 ≤ n) (hr : Ends r) (hs : skip r = r) :
    members (n + 1) (memberText k a ++ r) =
      if r.head? = some 44 then (members n r.tail).bind (fun p => some ((k, v) :: p.1, p.2))
      else if r.head? = some 125 then some ([(k, v)], r.tail) else none := by
  have e : memberText k a ++ r = 34 :: (k.flatMap escByte ++ 34 :: (58 :: 32 :: (a ++ r))) := by
    simp [memberText, escapeString, show asc ": " = [58, 32] by decide]
  rw [e, members]
  simp only [skip_cons _ (show isWs 34 = false by decide), List.head?_cons, List.tail_cons, if_true]
  rw [chars_string hk _ _ (by simp only [List.length_append, List.length_cons]; omega)]
  simp only [Option.bind_eq_bind, Option.bind_some, skip_cons _ (show isWs 58 = false by decide), List.head?_cons,
    List.tail_cons, if_true]
  rw [value_space, ha n r hn hr]
  simp only [Option.bind_some, hs]

/-- A key, the text of its value, and the value. -/
structure Member where
  key : List Nat
  text : List Nat
  value : Json

theorem members_text (l : List Member) : ∀ (q : Member), (∀ p ∈ q :: l, IsUtf8 p.key ∧ Reads p.text p.value) →
    ∀ (n : Nat) (r : List Nat), 2 * (memberText q.key q.text ++ commas (l.map (fun p => memberText p.key p.text))).length + 1 ≤ n →
    members n (memberText q.key q.text ++ commas (l.map (fun p => memberText p.key p.text)) ++ 125 :: r) =
      some ((q :: l).map (fun p => (p.key, p.value)), r) := by
  induction l with
  | nil =>
    intro q hq n r hn
    obtain ⟨h1, h2⟩ := Ends.skip (r := r) 125 (by simp)
    obtain ⟨hk, ha⟩ := hq q (by simp)
    cases n with
    | zero => omega
    | succ n =>
      simp only [List.map_nil, commas, List.flatMap_nil, List.append_nil] at hn ⊢
      rw [members_one hk ha (by simp [memberText, show asc ": " = [58, 32] by decide] at hn; omega) h1 h2]
      simp
  | cons p l ih =>
    intro q hq n r hn
    obtain ⟨hk, ha⟩ := hq q (by simp)
    cases n with
    | zero => omega
    | succ n =>
      have e : commas ((p :: l).map (fun p => memberText p.key p.text)) =
          44 :: 32 :: (memberText p.key p.text ++ commas (l.map (fun p => memberText p.key p.text))) := by
        simp [commas, show asc ", " = [44, 32] by decide]
      rw [e] at hn ⊢
      simp only [List.append_assoc, List.cons_append] at hn ⊢
      obtain ⟨h1, h2⟩ := Ends.skip (r := 32 :: (memberText p.key p.text ++ (commas (l.map (fun p => memberText p.key p.text)) ++ 125 :: r))) 44 (by simp)
      have hlen : (memberText q.key q.text).length = (escapeString q.key).length + 2 + q.text.length := by
        simp [memberText, show asc ": " = [58, 32] by decide]; omega
      simp only [List.length_append, List.length_cons] at hn
      rw [members_one hk ha (by omega) h1 h2]
      simp only [List.head?_cons, if_true, List.tail_cons]
      rw [members_space, ← List.append_assoc]
      rw [ih p (fun x hx => hq x (List.mem_cons_of_mem _ hx)) n r (by simp only [List.length_append]; omega)]
      simp

/-- Texts with commas between them. -/
def join : List (List Nat) → List Nat
  | [] => []
  | t :: l => t ++ commas l

theorem reads_obj (l : List Member) (h : ∀ p ∈ l, IsUtf8 p.key ∧ Reads p.text p.value) :
    Reads (asc "{" ++ join (l.map (fun p => memberText p.key p.text)) ++ asc "}")
      (.obj (l.map (fun p => (p.key, p.value)))) := by
  intro n r hn _
  simp only [show asc "{" = [123] by decide, show asc "}" = [125] by decide, List.cons_append, List.nil_append,
    List.append_assoc, List.length_append, List.length_cons, List.length_nil] at hn ⊢
  cases n with
  | zero => omega
  | succ n =>
    rw [value]
    simp only [skip_cons _ (show isWs 123 = false by decide), List.head?_cons, List.tail_cons]
    rw [if_pos trivial]
    cases l with
    | nil =>
      simp only [List.map_nil, join, List.nil_append, skip_cons _ (show isWs 125 = false by decide), List.head?_cons,
        if_true, List.tail_cons]
    | cons q l =>
      simp only [List.map_cons, join] at hn ⊢
      have e : (skip ((memberText q.key q.text ++ commas (l.map (fun p => memberText p.key p.text))) ++ 125 :: r)).head? = some 34 := by
        simp only [memberText, escapeString, List.cons_append, skip_cons _ (show isWs 34 = false by decide), List.head?_cons]
      rw [if_neg (by rw [e]; decide)]
      rw [members_text l q h n r (by omega)]
      rfl

theorem reads_parse {t : List Nat} {v : Json} (h : Reads t v) (s : List Nat) (hs : Ends s) (hw : ∀ c ∈ s, isWs c = true) : parse (t ++ s) = some v := by
  unfold parse
  rw [h _ s (by simp only [List.length_append]; omega) hs]
  have : skip s = [] := by
    unfold skip
    clear hs
    induction s with
    | nil => rfl
    | cons c s ih =>
      rw [List.dropWhile_cons_of_pos (hw c (by simp))]
      exact ih (fun x hx => hw x (by simp [hx]))
  simp [this]

end VS.Json
