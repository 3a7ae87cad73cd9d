import Verif.Json.LemmasMap
import Verif.Json.SpecMap

/-!
# The texts written are read as the values meant
-/

namespace VS.Json
open VS VS.Map

/-! ## Texts of ASCII characters -/

theorem utf8_ascii {c : Nat} (h : c < 128) : utf8 c = [c] := by unfold utf8; rw [if_pos h]

theorem ascii_utf8 {s : List Nat} (h : ∀ c ∈ s, c < 128) : IsUtf8 s := by
  refine ⟨s.map Char.ofNat, ?_⟩
  induction s with
  | nil => rfl
  | cons c s ih =>
    have hc := h c (by simp)
    have e : (Char.ofNat c).toNat = c := by
      have hv : c.isValidChar := .inl (by omega)
      unfold Char.ofNat
      rw [dif_pos hv]
      simp [Char.ofNatAux, Char.toNat]
    rw [List.map_cons, List.flatMap_cons, ← ih (fun x hx => h x (by simp [hx])), e, utf8_ascii hc]
    rfl

theorem keyBytes_append (a b : String) : keyBytes (a ++ b) = keyBytes a ++ keyBytes b := by
  simp [keyBytes]

theorem keyBytes_utf8 (k : String) : IsUtf8 (keyBytes k) := ⟨k.toList, rfl⟩

theorem digitChar_utf8 {n : Nat} (h : n < 10) : utf8 (Nat.digitChar n).toNat = [48 + n] := by
  have : n = 0 ∨ n = 1 ∨ n = 2 ∨ n = 3 ∨ n = 4 ∨ n = 5 ∨ n = 6 ∨ n = 7 ∨ n = 8 ∨ n = 9 := by omega
  rcases this with h | h | h | h | h | h | h | h | h | h <;> subst h <;> decide

theorem keyBytes_toString (n : Nat) : keyBytes (toString n) = dec n := by
  have e : ∀ n, (Nat.toDigits 10 n).flatMap (fun c => utf8 c.toNat) = dec n := by
    intro n
    induction n using Nat.strongRecOn with
    | _ n ih =>
      rw [dec]
      split
      · rename_i h
        rw [Nat.toDigits_of_lt_base h]
        simp [digitChar_utf8 h]
      · rename_i h
        rw [Nat.toDigits_of_base_le (by decide) (by omega), List.flatMap_append, ih _ (by omega)]
        simp [digitChar_utf8 (show n % 10 < 10 by omega)]
  have h2 : (toString n).toList = Nat.toDigits 10 n := by
    show (Nat.repr n).toList = _
    simp [Nat.repr]
  unfold keyBytes
  rw [h2, e]

/-- Characters that are written as they are. -/
theorem escape_self {s : List Nat} (h : ∀ c ∈ s, 32 ≤ c ∧ c ≠ 34 ∧ c ≠ 92) : s.flatMap escByte = s := by
  induction s with
  | nil => rfl
  | cons c s ih =>
    rw [List.flatMap_cons, ih (fun x hx => h x (by simp [hx]))]
    obtain ⟨h1, h2, h3⟩ := h c (by simp)
    unfold escByte
    rw [if_neg h3, if_neg (by omega), if_neg (by omega), if_neg (by omega), if_neg (by omega), if_neg (by omega), if_neg h2,
      if_neg (by omega)]
    rfl

theorem binary_text (n : Nat) : asc "\"[binary data size: " ++ dec n ++ asc "]\"" =
    escapeString (keyBytes ("[binary data size: " ++ toString n ++ "]")) := by
  rw [keyBytes_append, keyBytes_append, keyBytes_toString]
  unfold escapeString
  rw [escape_self]
  · rw [show asc "\"[binary data size: " = 34 :: keyBytes "[binary data size: " by decide +kernel,
      show asc "]\"" = keyBytes "]" ++ [34] by decide +kernel]
    simp
  · intro c hc
    rcases List.mem_append.1 hc with hc | hc
    rcases List.mem_append.1 hc with hc | hc
    · exact (show ∀ c ∈ keyBytes "[binary data size: ", 32 ≤ c ∧ c ≠ 34 ∧ c ≠ 92 by decide +kernel) c hc
    · have := dec_digits n c hc
      simp [isDigit] at this
      omega
    · exact (show ∀ c ∈ keyBytes "]", 32 ≤ c ∧ c ≠ 34 ∧ c ≠ 92 by decide +kernel) c hc

/-! ## No zero byte -/

theorem escape_nonzero (s : List Nat) : 0 ∉ s.flatMap escByte := by
  intro h
  obtain ⟨c, -, hc⟩ := List.mem_flatMap.1 h
  revert hc
  unfold escByte hexChar
  repeat' split
  all_goals simp
  all_goals omega

theorem escapeString_nonzero (s : List Nat) : 0 ∉ escapeString s := by
  unfold escapeString
  have := escape_nonzero s
  simp [this]

theorem isAsciiPrintable_iff (s : List Nat) : isAsciiPrintable s = true ↔ Ascii s := by
  simp [isAsciiPrintable, Ascii]

theorem takeWhile_all {s : List Nat} (h : 0 ∉ s) : s.takeWhile (· ≠ 0) = s := by
  induction s with
  | nil => rfl
  | cons c s ih =>
    simp only [List.mem_cons, not_or] at h
    rw [List.takeWhile_cons_of_pos (by simp; omega), ih h.2]

/-- A text that is read as a value, contains no zero and begins with a visible character other than `]`. -/
structure Good (t : List Nat) (v : Json) : Prop where
  reads : Reads t v
  nonzero : 0 ∉ t
  head : ∃ c r, t = c :: r ∧ isWs c = false ∧ c ≠ 93

theorem good_str {s : List Nat} (h : IsUtf8 s) : Good (escapeString s) (.str s) :=
  ⟨reads_str h, escapeString_nonzero s, 34, _, rfl, by decide, by decide⟩

theorem good_num {neg : Bool} {i f : List Nat} (h : Digits i f) : Good (numText neg i f) (.num ⟨neg, digits i, f, none⟩) := by
  refine ⟨reads_num h, ?_, ?_⟩
  · intro h0
    have hd : ∀ c, isDigit c = true → c ≠ 0 := by intro c hc; simp [isDigit] at hc; omega
    unfold numText at h0
    rcases List.mem_append.1 h0 with h0 | h0
    rcases List.mem_append.1 h0 with h0 | h0
    · revert h0; split <;> simp
    · exact hd 0 (h.2.1 0 h0) rfl
    · revert h0
      split
      · simp
      · intro h0
        rcases List.mem_cons.1 h0 with h0 | h0
        · cases h0
        · exact hd 0 (h.2.2.1 0 h0) rfl
  · cases hi : i with
    | nil => exact absurd hi h.1
    | cons a i' =>
      have ha := h.2.1 a (by rw [hi]; simp)
      simp only [isDigit, Bool.and_eq_true, decide_eq_true_eq] at ha
      cases neg
      · exact ⟨a, _, by simp [numText]; rfl, by simp [isWs]; omega, by omega⟩
      · exact ⟨45, _, by simp [numText]; rfl, by decide, by decide⟩

/-- Values are written as texts with their meaning. -/
theorem means_good {fixed : Nat → List Nat} {v : Val} {j : Json} (h : Means fixed v j) :
    Writable fixed v ∧ Good (valText fixed v) j := by
  cases h with
  | int i =>
    refine ⟨trivial, ?_⟩
    have := good_num (neg := decide (i < 0)) (dec_Digits i.natAbs)
    rw [digits_dec, ← decimal_text] at this
    exact this
  | float b neg i f hd he hl =>
    refine ⟨hl, ?_⟩
    show Good (fixed b) _
    rw [he]
    exact good_num hd
  | text s hu h0 =>
    refine ⟨trivial, ?_⟩
    show Good (dataText 1 s) _
    unfold dataText
    rw [if_pos (.inl rfl), takeWhile_all h0]
    exact good_str hu
  | plain s ha hl =>
    refine ⟨trivial, ?_⟩
    show Good (dataText (-1) s) _
    unfold dataText
    rw [if_pos (.inr ⟨rfl, hl, (isAsciiPrintable_iff s).2 ha⟩), takeWhile_all (fun h0 => by have := ha 0 h0; omega)]
    exact good_str (ascii_utf8 (fun c hc => by have := ha c hc; omega))
  | binary hint s h1 h2 =>
    refine ⟨trivial, ?_⟩
    show Good (dataText hint s) _
    unfold dataText
    rw [if_neg (by rw [isAsciiPrintable_iff]; exact fun h => h.elim h1 h2), binary_text]
    exact good_str (keyBytes_utf8 _)

theorem join_nonzero {l : List (List Nat)} (h : ∀ t ∈ l, 0 ∉ t) : 0 ∉ join l := by
  have hc : ∀ l : List (List Nat), (∀ t ∈ l, 0 ∉ t) → 0 ∉ commas l := by
    intro l hl h0
    unfold commas at h0
    obtain ⟨t, ht, h0⟩ := List.mem_flatMap.1 h0
    rcases List.mem_append.1 h0 with h0 | h0
    · revert h0; decide +kernel
    · exact hl t ht h0
  cases l with
  | nil => simp [join]
  | cons a l =>
    unfold join
    intro h0
    rcases List.mem_append.1 h0 with h0 | h0
    · exact h a (by simp) h0
    · exact hc l (fun t ht => h t (by simp [ht])) h0

theorem zip_means {fixed : Nat → List Nat} (l : List Val) : ∀ (js : List Json), js.length = l.length →
    (∀ (i : Nat) (v : Val) (j : Json), l[i]? = some v → js[i]? = some j → Means fixed v j) →
    ∃ q : List (List Nat × Json), q.map (·.1) = l.map (valText fixed) ∧ q.map (·.2) = js ∧
      (∀ p ∈ q, Good p.1 p.2) ∧ ∀ v ∈ l, Writable fixed v := by
  induction l with
  | nil =>
    intro js hl _
    have : js = [] := by simpa using hl
    exact ⟨[], by simp [this]⟩
  | cons v l ih =>
    intro js hl hm
    cases js with
    | nil => simp at hl
    | cons j js =>
      obtain ⟨q, h1, h2, h3, h4⟩ := ih js (by simpa using hl) (fun i v j h1 h2 => hm (i + 1) v j (by simpa using h1) (by simpa using h2))
      obtain ⟨hw, hg⟩ := means_good (hm 0 v j rfl rfl)
      refine ⟨(valText fixed v, j) :: q, by simp [h1], by simp [h2], ?_, ?_⟩
      · intro p hp
        rcases List.mem_cons.1 hp with hp | hp
        · subst hp; exact hg
        · exact h3 p hp
      · intro u hu
        rcases List.mem_cons.1 hu with hu | hu
        · subst hu; exact hw
        · exact h4 u hu

theorem shows_good {fixed : Nat → List Nat} {l : List Val} {j : Json} (h : Shows fixed l j) :
    (∀ v ∈ l, Writable fixed v) ∧ Reads (entryText fixed l) j ∧ 0 ∉ entryText fixed l := by
  cases h with
  | none => exact ⟨fun v hv => absurd hv (by simp), reads_null, show 0 ∉ asc "null" by decide +kernel⟩
  | one v j h =>
    obtain ⟨hw, hg⟩ := means_good h
    exact ⟨fun u hu => by simp at hu; subst hu; exact hw, hg.reads, hg.nonzero⟩
  | many l js h2 hlen hm =>
    obtain ⟨q, e1, e2, hg, hw⟩ := zip_means l js hlen hm
    refine ⟨hw, ?_⟩
    have et : entryText fixed l = asc "[" ++ join (l.map (valText fixed)) ++ asc "]" := by
      cases l with
      | nil => simp at h2
      | cons a l => cases l with
        | nil => simp at h2
        | cons b l => rfl
    rw [et, ← e1, ← e2]
    constructor
    · cases q with
      | nil =>
        have : l = [] := by simpa using e1.symm
        subst this
        simp at h2
      | cons p q =>
        have hp := hg p (by simp)
        refine reads_arr hp.reads (fun x hx => (hg x (by simp [hx])).reads) (fun r => ?_)
        obtain ⟨c, t, hc, hs, h93⟩ := hp.head
        rw [hc, List.cons_append, skip_cons _ hs]
        simpa using h93
    · intro h0
      rcases List.mem_append.1 h0 with h0 | h0
      rcases List.mem_append.1 h0 with h0 | h0
      · revert h0; decide +kernel
      · refine join_nonzero ?_ h0
        intro t ht
        obtain ⟨p, hp, rfl⟩ := List.mem_map.1 ht
        exact (hg p hp).nonzero
      · revert h0; decide +kernel

end VS.Json
