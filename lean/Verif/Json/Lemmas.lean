import Verif.Json.Model

/-!
# Reading back what is written: strings and numbers
-/

namespace VS.Json

theorem hexDigit_hexChar {n : Nat} (h : n < 16) : hexDigit (hexChar n) = some n := by
  have : n = 0 ∨ n = 1 ∨ n = 2 ∨ n = 3 ∨ n = 4 ∨ n = 5 ∨ n = 6 ∨ n = 7 ∨ n = 8 ∨ n = 9 ∨ n = 10 ∨ n = 11 ∨ n = 12 ∨ n = 13 ∨ n = 14 ∨ n = 15 := by omega
  rcases this with h | h | h | h | h | h | h | h | h | h | h | h | h | h | h | h <;> subst h <;> decide

/-- An ASCII character is read back. -/
theorem item_ascii {c : Nat} (h : c < 128) (t : List Nat) : item (escByte c ++ t) = some ([c], t) := by
  unfold escByte
  split
  · subst c; rfl
  split
  · subst c; rfl
  split
  · subst c; rfl
  split
  · subst c; rfl
  split
  · subst c; rfl
  split
  · subst c; rfl
  split
  · subst c; rfl
  split
  · rename_i h2
    have e1 : hexDigit (hexChar (c / 16 % 16)) = some (c / 16) := by rw [hexDigit_hexChar (by omega)]; congr 1; omega
    have e2 : hexDigit (hexChar (c % 16)) = some (c % 16) := hexDigit_hexChar (by omega)
    have e3 : hexDigit 48 = some 0 := by decide
    have e4 : ((0 * 16 + 0) * 16 + c / 16) * 16 + c % 16 = c := by omega
    simp only [item, escape, hex4, List.cons_append, List.nil_append, e1, e2, e3]
    simp only [Option.bind_eq_bind, Option.bind_some, e4]
    have e5 : utf8 c = [c] := by unfold utf8; rw [if_pos h]
    have e6 : c < 55296 := by omega
    simp [e5, e6]
  · rename_i h1 h2 h3 h4 h5 h6 h7 h8
    simp only [item, List.cons_append, List.nil_append]
    rw [if_neg h1, if_neg (by simp; omega), if_pos h]

theorem escByte_head {c : Nat} (t : List Nat) : (escByte c ++ t).head? ≠ some 34 := by
  unfold escByte
  repeat' split
  all_goals simp_all

theorem escByte_high {c : Nat} (h : 128 ≤ c) : escByte c = [c] := by
  unfold escByte
  repeat (rw [if_neg (by omega)])

/-- Decides conditions on bytes. -/
local macro "byte" : tactic => `(tactic| (simp only [isCont, Bool.and_eq_true, Bool.or_eq_true, decide_eq_true_eq, bne_iff_ne]; omega))

/-- A character outside ASCII is read back. -/
theorem item_high {c : Nat} (h : 128 ≤ c) (hv : c < 55296 ∨ 57343 < c ∧ c < 1114112) (t : List Nat) :
    (utf8 c).flatMap escByte = utf8 c ∧ item (utf8 c ++ t) = some (utf8 c, t) ∧ (utf8 c ++ t).head? ≠ some 34 := by
  unfold utf8
  rw [if_neg (by omega)]
  split
  · refine ⟨?_, ?_, ?_⟩
    · simp only [List.flatMap_cons, List.flatMap_nil, List.append_nil]
      rw [escByte_high (by omega), escByte_high (by omega)]; rfl
    · simp only [item, multi, List.cons_append, List.nil_append]
      rw [if_neg (by omega), if_neg (by byte), if_neg (by omega), if_pos (by byte), if_pos (by byte)]
    · simp; omega
  split
  · refine ⟨?_, ?_, ?_⟩
    · simp only [List.flatMap_cons, List.flatMap_nil, List.append_nil]
      rw [escByte_high (by omega), escByte_high (by omega), escByte_high (by omega)]; rfl
    · simp only [item, multi, List.cons_append, List.nil_append]
      rw [if_neg (by omega), if_neg (by byte), if_neg (by omega), if_neg (by byte), if_pos (by byte),
        if_pos (by byte)]
    · simp; omega
  · refine ⟨?_, ?_, ?_⟩
    · simp only [List.flatMap_cons, List.flatMap_nil, List.append_nil]
      rw [escByte_high (by omega), escByte_high (by omega), escByte_high (by omega), escByte_high (by omega)]; rfl
    · simp only [item, multi, List.cons_append, List.nil_append]
      rw [if_neg (by omega), if_neg (by byte), if_neg (by omega), if_neg (by byte), if_neg (by byte),
        if_pos (by byte)]
    · simp; omega

theorem char_range (c : Char) : c.toNat < 55296 ∨ 57343 < c.toNat ∧ c.toNat < 1114112 := by
  have := c.valid
  simpa [UInt32.isValidChar, Nat.isValidChar] using this

theorem item_char (c : Char) (t : List Nat) :
    item ((utf8 c.toNat).flatMap escByte ++ t) = some (utf8 c.toNat, t) ∧
      ((utf8 c.toNat).flatMap escByte ++ t).head? ≠ some 34 ∧ 1 ≤ ((utf8 c.toNat).flatMap escByte).length := by
  by_cases h : c.toNat < 128
  · have e : utf8 c.toNat = [c.toNat] := by unfold utf8; rw [if_pos h]
    rw [e]
    simp only [List.flatMap_cons, List.flatMap_nil, List.append_nil]
    refine ⟨item_ascii h t, escByte_head t, ?_⟩
    unfold escByte
    repeat' split
    all_goals simp
  · obtain ⟨h1, h2, h3⟩ := item_high (c := c.toNat) (by omega) (char_range c) t
    rw [h1]
    refine ⟨h2, h3, ?_⟩
    unfold utf8
    repeat' split
    all_goals simp

theorem chars_escape (cs : List Char) : ∀ (n : Nat) (t : List Nat),
    ((cs.flatMap (fun c => utf8 c.toNat)).flatMap escByte).length < n →
    chars n ((cs.flatMap (fun c => utf8 c.toNat)).flatMap escByte ++ 34 :: t) =
      some (cs.flatMap (fun c => utf8 c.toNat), t) := by
  induction cs with
  | nil => intro n t h; cases n with
    | zero => simp at h
    | succ n => simp [chars]
  | cons c cs ih =>
    intro n t h
    cases n with
    | zero => simp at h
    | succ n =>
      simp only [List.flatMap_cons, List.flatMap_append, List.length_append] at h ⊢
      rw [List.append_assoc]
      obtain ⟨h1, h2, h3⟩ := item_char c ((cs.flatMap (fun c => utf8 c.toNat)).flatMap escByte ++ 34 :: t)
      rw [chars, if_neg h2, h1]
      simp only [Option.bind_eq_bind, Option.bind_some]
      rw [ih n t (by omega)]
      rfl

/-- A valid string is read back, quotes removed. -/
theorem chars_string {s : List Nat} (h : IsUtf8 s) (n : Nat) (t : List Nat) (hn : (s.flatMap escByte).length < n) :
    chars n (s.flatMap escByte ++ 34 :: t) = some (s, t) := by
  obtain ⟨cs, rfl⟩ := h
  exact chars_escape cs n t hn

/-! ## Digits -/

theorem dec_digits (n : Nat) : ∀ c ∈ dec n, isDigit c = true := by
  induction n using Nat.strongRecOn with
  | _ n ih =>
    rw [dec]
    split
    · intro c hc; simp at hc; subst c; simp [isDigit]; omega
    · intro c hc
      rcases List.mem_append.1 hc with hc | hc
      · exact ih _ (by omega) c hc
      · simp at hc; subst c; simp [isDigit]; omega

theorem dec_ne_nil (n : Nat) : dec n ≠ [] := by
  rw [dec]; split <;> simp

theorem dec_head (n : Nat) : (dec n).head? = some 48 → n = 0 := by
  induction n using Nat.strongRecOn with
  | _ n ih =>
    rw [dec]
    split
    · simp
    · intro h
      rw [List.head?_append] at h
      cases hd : (dec (n / 10)).head? with
      | none => exact absurd (List.head?_eq_none_iff.1 hd) (dec_ne_nil _)
      | some x =>
      rw [hd] at h
      have h : (dec (n / 10)).head? = some 48 := by rw [hd]; exact h
      have := ih (n / 10) (by omega) h
      omega

theorem digits_append (l : List Nat) (c : Nat) : digits (l ++ [c]) = digits l * 10 + (c - 48) := by
  simp [digits]

theorem digits_dec (n : Nat) : digits (dec n) = n := by
  induction n using Nat.strongRecOn with
  | _ n ih =>
    rw [dec]
    split
    · simp [digits]
    · rw [digits_append, ih _ (by omega)]; omega

theorem dec_Digits (n : Nat) : Digits (dec n) [] := by
  refine ⟨dec_ne_nil n, dec_digits n, fun c h => absurd h (by simp), fun h => ?_⟩
  have := dec_head n h
  subst this
  rw [dec]; rfl

theorem decimal_text (i : Int) : decimal i = numText (decide (i < 0)) (dec i.natAbs) [] := by
  unfold decimal numText
  simp

/-! ## Numbers -/

/-- What may follow a value: nothing, a comma, a closing bracket or brace, the end of the line. -/
def Ends (t : List Nat) : Prop := t.head? = none ∨ t.head? = some 44 ∨ t.head? = some 93 ∨ t.head? = some 125 ∨ t.head? = some 10

theorem Ends.takeWhile {t : List Nat} (h : Ends t) : t.takeWhile isDigit = [] ∧ t.dropWhile isDigit = t := by
  cases t with
  | nil => simp
  | cons c t =>
    have : isDigit c = false := by
      simp [Ends] at h
      rcases h with h | h | h | h <;> subst h <;> decide
    simp [this]

theorem takeWhile_digits {i t : List Nat} (hi : ∀ c ∈ i, isDigit c = true) (ht : ∀ c, t.head? = some c → isDigit c = false) :
    (i ++ t).takeWhile isDigit = i ∧ (i ++ t).dropWhile isDigit = t := by
  induction i with
  | nil =>
    cases t with
    | nil => simp
    | cons c t => simp [ht c rfl]
  | cons a i ih =>
    have ha : isDigit a = true := hi a (by simp)
    obtain ⟨h1, h2⟩ := ih (fun c hc => hi c (by simp [hc]))
    simp [ha, h1, h2]

theorem Ends.head {t : List Nat} (h : Ends t) : ∀ c, t.head? = some c → isDigit c = false ∧ c ≠ 46 ∧ c ≠ 101 ∧ c ≠ 69 := by
  intro c hc
  rcases h with h | h | h | h | h
  · rw [hc] at h; cases h
  all_goals (rw [hc] at h; injection h with h; subst h; decide)

theorem number_text {neg : Bool} {i f : List Nat} (h : Digits i f) {t : List Nat} (ht : Ends t) :
    number (numText neg i f ++ t) = some (⟨neg, digits i, f, none⟩, t) := by
  obtain ⟨h1, h2, h3, h4⟩ := h
  have hd : ∀ c, isDigit c = true → c ≠ 45 ∧ c ≠ 46 := by
    intro c hc; simp [isDigit] at hc; omega
  have hne : ¬ (i.isEmpty || (i.head? == some 48 && 1 < i.length)) = true := by
    intro hc
    simp at hc
    rcases hc with hc | ⟨hc, hl⟩
    · exact h1 hc
    · rw [h4 hc] at hl; simp at hl
  cases hi : i with
  | nil => exact absurd hi h1
  | cons a i' =>
    rw [← hi]
    have ha : a ≠ 45 := (hd a (h2 a (by rw [hi]; simp))).1
    have hneg : ((numText neg i f ++ t).head? == some 45) = neg := by
      cases neg
      · simp [numText, hi, ha]
      · simp [numText]
    have htail : (if neg = true then (numText neg i f ++ t).tail else numText neg i f ++ t) =
        i ++ ((if f = [] then [] else 46 :: f) ++ t) := by
      cases neg <;> simp [numText]
    unfold number
    simp only [hneg, htail]
    by_cases hf : f = []
    · subst hf
      simp only [if_true, List.nil_append]
      obtain ⟨e1, e2⟩ := takeWhile_digits h2 (fun c hc => (ht.head c hc).1)
      rw [e1, e2, if_neg hne]
      have e3 : (t.head? == some 46) = false := by
        rcases ht with h | h | h | h | h <;> rw [h] <;> rfl
      have e4 : (t.head? == some 101 || t.head? == some 69) = false := by
        rcases ht with h | h | h | h | h <;> rw [h] <;> rfl
      simp [e3, e4]
    · rw [if_neg hf]
      obtain ⟨e1, e2⟩ := takeWhile_digits (i := i) (t := 46 :: f ++ t) h2
        (fun c hc => by simp at hc; subst hc; rfl)
      simp only [List.cons_append] at e1 e2 ⊢
      simp only [e1, e2]
      rw [if_neg hne]
      obtain ⟨e5, e6⟩ := takeWhile_digits h3 (fun c hc => (ht.head c hc).1)
      have e4 : (t.head? == some 101 || t.head? == some 69) = false := by
        rcases ht with h | h | h | h | h <;> rw [h] <;> rfl
      simp [e5, e6, e4, hf]

end VS.Json
