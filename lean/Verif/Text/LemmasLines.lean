import Verif.Text.Model
import Verif.Text.Spec
import Mathlib.Tactic.Linarith

/-! # Lines of a text -/

namespace VS.Text
open VS VS.Format VS.Map VS.Map.Spec VS.Pix VS.Pix.Spec VS.Point VS.Point.Spec

theorem adjust_eq {c : Nat} : adjust c = Spec.glyph c := by
  unfold adjust Spec.glyph Spec.missing
  simp only [List.mem_cons, List.not_mem_nil, or_false]
  by_cases h : c < 32 ∨ c = 129 ∨ c = 141 ∨ c = 143 ∨ c = 144 ∨ c = 157
  · rw [if_pos h, if_pos h]
  · rw [if_neg h, if_neg h]
    have e : ∀ a : Nat, (decide (a < c)) = if a < c then true else false := fun a => by by_cases h : a < c <;> simp [h]
    by_cases h1 : c > 157
    · rw [if_pos h1]
      simp [List.filter, show 129 < c by omega, show 141 < c by omega, show 143 < c by omega, show 144 < c by omega, show 157 < c by omega]
    · rw [if_neg h1]
      by_cases h2 : c > 144
      · rw [if_pos h2]
        simp [List.filter, show 129 < c by omega, show 141 < c by omega, show 143 < c by omega, show 144 < c by omega, show ¬ 157 < c by omega]
      · rw [if_neg h2]
        by_cases h3 : c > 141
        · rw [if_pos h3]
          have : c = 142 := by omega
          subst this
          decide
        · rw [if_neg h3]
          by_cases h4 : c > 129
          · rw [if_pos h4]
            simp [List.filter, show 129 < c by omega, show ¬ 141 < c by omega, show ¬ 143 < c by omega, show ¬ 144 < c by omega, show ¬ 157 < c by omega]
          · rw [if_neg h4]
            simp [List.filter, show ¬ 129 < c by omega, show ¬ 141 < c by omega, show ¬ 143 < c by omega, show ¬ 144 < c by omega, show ¬ 157 < c by omega]

theorem glyph_lt {c : Nat} (h : c < 256) : Spec.glyph c < 251 := by
  rw [← adjust_eq]
  unfold adjust
  repeat' split
  all_goals omega

theorem glyph_ne {c : Nat} : Spec.glyph c ≠ 10 := by
  rw [← adjust_eq]
  unfold adjust
  repeat' split
  all_goals omega

/-! ## Breaks -/

theorem sanitise_plain {l : List Nat} (h : Spec.Plain l) (t : List Nat) :
    sanitise (l ++ t) = l.map Spec.glyph ++ sanitise t := by
  induction l with
  | nil => rfl
  | cons c l ih =>
    obtain ⟨h1, h2⟩ := h
    rw [List.mem_cons, not_or] at h1 h2
    rw [List.cons_append, sanitise.eq_def]
    simp only
    rw [if_neg (fun e => h2.1 e.symm), if_neg (fun e => h1.1 e.symm), ih ⟨h1.2, h2.2⟩, adjust_eq]
    rfl

theorem sanitise_lf (t : List Nat) : sanitise (10 :: t) = 10 :: sanitise t := by
  rw [sanitise.eq_def]
  simp

theorem sanitise_crlf (t : List Nat) : sanitise (13 :: 10 :: t) = 10 :: sanitise t := by
  rw [sanitise.eq_def]
  simp

theorem sanitise_cr {t : List Nat} (h : t.head? ≠ some 10) : sanitise (13 :: t) = 10 :: sanitise t := by
  rw [sanitise.eq_def]
  simp only
  rw [if_pos trivial]
  split
  · simp at h
  · rfl

theorem splitLines_plain {l : List Nat} (h : 10 ∉ l) (cur t : List Nat) :
    splitLines cur (l ++ t) = splitLines (cur ++ l) t := by
  induction l generalizing cur with
  | nil => simp
  | cons c l ih =>
    rw [List.mem_cons, not_or] at h
    rw [List.cons_append, splitLines, if_neg (fun e => h.1 e.symm), ih h.2]
    simp

theorem map_glyph_plain (l : List Nat) : 10 ∉ l.map Spec.glyph := by
  rw [List.mem_map]
  rintro ⟨c, _, e⟩
  exact glyph_ne e

theorem split_breaks {txt : List Nat} {ls : List (List Nat)} (h : Spec.Breaks txt ls) :
    splitLines [] (sanitise txt) = ls.map (List.map Spec.glyph) := by
  have step : ∀ (l t : List Nat), Spec.Plain l → splitLines [] (l.map Spec.glyph ++ 10 :: t) = l.map Spec.glyph :: splitLines [] t := by
    intro l t _
    rw [splitLines_plain (map_glyph_plain l), splitLines, if_pos rfl, List.nil_append]
  induction h with
  | last l hl =>
    have := sanitise_plain hl []
    rw [List.append_nil] at this
    rw [this]
    have h2 := splitLines_plain (map_glyph_plain l) [] []
    rw [List.append_nil, List.nil_append] at h2
    show splitLines [] (l.map Spec.glyph ++ []) = _
    rw [List.append_nil, h2]
    rfl
  | lf l t ls hl _ ih => rw [sanitise_plain hl, sanitise_lf, step _ _ hl, ih]; rfl
  | crlf l t ls hl _ ih => rw [sanitise_plain hl, sanitise_crlf, step _ _ hl, ih]; rfl
  | cr l t ls hl hh _ ih => rw [sanitise_plain hl, sanitise_cr hh, step _ _ hl, ih]; rfl

/-- A character in front. -/
theorem breaks_cons {c : Nat} (h1 : c ≠ 10) (h2 : c ≠ 13) {t : List Nat} {ls : List (List Nat)} (h : Spec.Breaks t ls) :
    ∃ ls', Spec.Breaks (c :: t) ls' := by
  have pl : ∀ {l : List Nat}, Spec.Plain l → Spec.Plain (c :: l) := by
    rintro l ⟨a, b⟩
    refine ⟨fun h => ?_, fun h => ?_⟩
    · rcases List.mem_cons.1 h with e | e
      · exact h1 e.symm
      · exact a e
    · rcases List.mem_cons.1 h with e | e
      · exact h2 e.symm
      · exact b e
  cases h with
  | last _ hl => exact ⟨_, .last _ (pl hl)⟩
  | lf l t ls hl hb => exact ⟨_, .lf (c :: l) t ls (pl hl) hb⟩
  | crlf l t ls hl hb => exact ⟨_, .crlf (c :: l) t ls (pl hl) hb⟩
  | cr l t ls hl hh hb => exact ⟨_, .cr (c :: l) t ls (pl hl) hh hb⟩

theorem plain_nil : Spec.Plain [] := ⟨by simp, by simp⟩

theorem breaks_exists (txt : List Nat) : ∃ ls, Spec.Breaks txt ls := by
  suffices ∀ n (txt : List Nat), txt.length ≤ n → ∃ ls, Spec.Breaks txt ls from this _ txt (Nat.le_refl _)
  intro n
  induction n with
  | zero =>
    intro txt h
    rw [List.length_eq_zero_iff.1 (Nat.le_zero.1 h)]
    exact ⟨_, .last [] plain_nil⟩
  | succ n ih =>
    intro txt h
    rcases txt with _ | ⟨c, t⟩
    · exact ⟨_, .last [] plain_nil⟩
    · rw [List.length_cons] at h
      obtain ⟨ls, hb⟩ := ih t (by omega)
      by_cases h1 : c = 10
      · subst h1
        exact ⟨_, .lf [] t ls plain_nil hb⟩
      · by_cases h2 : c = 13
        · subst h2
          by_cases h3 : t.head? = some 10
          · rcases t with _ | ⟨d, t⟩
            · simp at h3
            · rw [List.head?_cons, Option.some.injEq] at h3
              subst h3
              rw [List.length_cons] at h
              obtain ⟨ls', hb'⟩ := ih t (by omega)
              exact ⟨_, .crlf [] t ls' plain_nil hb'⟩
          · exact ⟨_, .cr [] t ls plain_nil h3 hb⟩
        · exact breaks_cons h1 h2 hb

theorem breaks_mem {txt : List Nat} {ls : List (List Nat)} (h : Spec.Breaks txt ls) : ∀ l ∈ ls, ∀ c ∈ l, c ∈ txt := by
  induction h with
  | last l _ => intro l' hl c hc; rw [List.mem_singleton.1 hl] at hc; exact hc
  | lf l t ls _ _ ih =>
    intro l' hl c hc
    rcases List.mem_cons.1 hl with rfl | hl
    · exact List.mem_append_left _ hc
    · exact List.mem_append_right _ (List.mem_cons_of_mem _ (ih _ hl _ hc))
  | crlf l t ls _ _ ih =>
    intro l' hl c hc
    rcases List.mem_cons.1 hl with rfl | hl
    · exact List.mem_append_left _ hc
    · exact List.mem_append_right _ (List.mem_cons_of_mem _ (List.mem_cons_of_mem _ (ih _ hl _ hc)))
  | cr l t ls _ _ _ ih =>
    intro l' hl c hc
    rcases List.mem_cons.1 hl with rfl | hl
    · exact List.mem_append_left _ hc
    · exact List.mem_append_right _ (List.mem_cons_of_mem _ (ih _ hl _ hc))

/-! ## Pieces -/

theorem wrap_cut {cap : Nat} (hc : 0 < cap) (line : List Nat) : Spec.Cut cap line (wrapLine cap line) := by
  suffices ∀ n (line : List Nat), line.length ≤ n → Spec.Cut cap line (wrapLine cap line) from this _ line (Nat.le_refl _)
  intro n
  induction n with
  | zero =>
    intro line h
    rw [List.length_eq_zero_iff.1 (Nat.le_zero.1 h), wrapLine, if_neg (by simp)]
    refine ⟨rfl, by simp, ?_, ?_, fun _ => rfl⟩
    · intro i p hi _; simp at hi
    · intro p hp; rw [List.mem_singleton.1 hp]; simp
  | succ n ih =>
    intro line h
    rw [wrapLine]
    by_cases hl : 0 < cap ∧ line.length > cap
    · rw [if_pos hl]
      have hd : (line.drop cap).length ≤ n := by rw [List.length_drop]; omega
      obtain ⟨c1, c2, c3, c4, c5⟩ := ih _ hd
      refine ⟨?_, by simp, ?_, ?_, ?_⟩
      · rw [List.flatten_cons, c1, List.take_append_drop]
      · intro i p hi hp
        rcases i with _ | i
        · rw [List.getElem?_cons_zero, Option.some.injEq] at hp
          rw [← hp, List.length_take]
          omega
        · rw [List.getElem?_cons_succ] at hp
          rw [List.length_cons] at hi
          exact c3 i p (by omega) hp
      · intro p hp
        rcases List.mem_cons.1 hp with rfl | hp
        · rw [List.length_take]; omega
        · exact c4 p hp
      · intro hm
        rcases List.mem_cons.1 hm with e | hm
        · have := congrArg List.length e
          rw [List.length_take, List.length_nil] at this
          omega
        · have h1 := c5 hm
          rw [h1] at c1
          have := congrArg List.length c1
          rw [List.length_drop] at this
          simp at this
          omega
    · rw [if_neg hl]
      refine ⟨by simp, by simp, ?_, ?_, ?_⟩
      · intro i p hi _; simp at hi
      · intro p hp; rw [List.mem_singleton.1 hp]; omega
      · intro hm; rw [← List.mem_singleton.1 hm]

/-- Pieces are determined by the line. -/
theorem cut_unique {cap : Nat} {line : List Nat} {ps qs : List (List Nat)} (h1 : Spec.Cut cap line ps) (h2 : Spec.Cut cap line qs) :
    ps = qs := by
  induction ps generalizing line qs with
  | nil => exact absurd rfl h1.nonempty
  | cons a t ih =>
    rcases qs with _ | ⟨b, u⟩
    · exact absurd rfl h2.nonempty
    · have f1 := h1.same
      have f2 := h2.same
      rw [List.flatten_cons] at f1 f2
      have la : a.length ≤ cap := h1.short a (by simp)
      have lb : b.length ≤ cap := h2.short b (by simp)
      rcases t with _ | ⟨a2, t⟩
      · rcases u with _ | ⟨b2, u⟩
        · simp only [List.flatten_nil, List.append_nil] at f1 f2
          rw [f1, f2]
        · exfalso
          have eb := h2.full 0 b (by simp) rfl
          have hb2 : b2 ≠ [] := by
            intro e
            have := h2.empty (by rw [e]; simp)
            simp at this
          have : 0 < b2.length := List.length_pos_iff.2 hb2
          have e := congrArg List.length f1
          have e2 := congrArg List.length f2
          simp only [List.flatten_nil, List.append_nil, List.flatten_cons, List.length_append] at e e2
          omega
      · have ea := h1.full 0 a (by simp) rfl
        rcases u with _ | ⟨b2, u⟩
        · exfalso
          have ha2 : a2 ≠ [] := by
            intro e
            have := h1.empty (by rw [e]; simp)
            simp at this
          have : 0 < a2.length := List.length_pos_iff.2 ha2
          have e := congrArg List.length f1
          have e2 := congrArg List.length f2
          simp only [List.flatten_nil, List.append_nil, List.flatten_cons, List.length_append] at e e2
          omega
        · have eb := h2.full 0 b (by simp) rfl
          have hab := List.append_inj (f1.trans f2.symm) (by omega)
          have s1 : Spec.Cut cap (a2 :: t).flatten (a2 :: t) := by
            refine ⟨rfl, by simp, ?_, ?_, ?_⟩
            · intro i p hi hp; exact h1.full (i + 1) p (by simpa using hi) (by simpa using hp)
            · intro p hp; exact h1.short p (List.mem_cons_of_mem _ hp)
            · intro hm
              have := h1.empty (List.mem_cons_of_mem _ hm)
              simp at this
          have s2 : Spec.Cut cap (a2 :: t).flatten (b2 :: u) := by
            refine ⟨hab.2.symm, by simp, ?_, ?_, ?_⟩
            · intro i p hi hp; exact h2.full (i + 1) p (by simpa using hi) (by simpa using hp)
            · intro p hp; exact h2.short p (List.mem_cons_of_mem _ hp)
            · intro hm
              have := h2.empty (List.mem_cons_of_mem _ hm)
              simp at this
          rw [ih s1 s2, hab.1]

/-! ## The page -/

/-- What the filter draws. -/
def pageOf (W H s : Nat) (txt : List Nat) : List (List Nat) :=
  ((splitLines [] (sanitise txt)).flatMap (wrapLine ((W - 32) / (8 * s)))).take ((H - 32) / (16 * s))

theorem cap_pos {W s : Nat} (hs : 0 < s) (hW : 32 + 8 * s ≤ W) : 0 < (W - 32) / (8 * s) :=
  Nat.div_pos (by omega) (by omega)

theorem splitText_ok {W H s : Nat} (hs : 0 < s) (hW : 32 + 8 * s ≤ W) (txt : List Nat) :
    splitText (sanitise txt) (W - 32) (H - 32) s = .ok (pageOf W H s txt) := by
  unfold splitText pageOf
  simp only
  rw [Nat.div_div_eq_div_mul, Nat.div_div_eq_div_mul, if_neg]
  have := cap_pos hs hW
  rintro ⟨h, _⟩
  omega

theorem page_ok {W H s : Nat} (hs : 0 < s) (hW : 32 + 8 * s ≤ W) (txt : List Nat) : Spec.Page W H s txt (pageOf W H s txt) := by
  obtain ⟨ls, hb⟩ := breaks_exists txt
  refine ⟨ls, (ls.map (List.map Spec.glyph)).map (wrapLine ((W - 32) / (8 * s))), hb, by simp, ?_, ?_⟩
  · intro i l ps hl hp
    rw [List.getElem?_map, List.getElem?_map, hl] at hp
    simp only [Option.map_some, Option.some.injEq] at hp
    rw [← hp]
    exact wrap_cut (cap_pos hs hW) _
  · unfold pageOf
    rw [split_breaks hb, List.flatMap_def]

/-- There is only one page. -/
theorem page_unique {W H s : Nat} (hs : 0 < s) (hW : 32 + 8 * s ≤ W) {txt : List Nat} {L : List (List Nat)}
    (h : Spec.Page W H s txt L) : L = pageOf W H s txt := by
  obtain ⟨ls, pieces, hb, hl, hc, e⟩ := h
  rw [e]
  unfold pageOf
  rw [split_breaks hb, List.flatMap_def]
  congr 2
  apply List.ext_getElem?
  intro i
  rcases e1 : pieces[i]? with _ | ps
  · rw [List.getElem?_eq_none_iff] at e1
    symm
    rw [List.getElem?_eq_none_iff]
    simpa [← hl] using e1
  · have hi := (List.getElem?_eq_some_iff.1 e1).1
    have e2 : ls[i]? = some ls[i] := List.getElem?_eq_getElem (by omega)
    rw [List.getElem?_map, List.getElem?_map, e2]
    simp only [Option.map_some, Option.some.injEq]
    exact cut_unique (hc i _ ps e2 e1) (wrap_cut (cap_pos hs hW) _)

theorem page_short {W H s : Nat} (hs : 0 < s) (hW : 32 + 8 * s ≤ W) {txt : List Nat} {l : List Nat} (h : l ∈ pageOf W H s txt) :
    l.length ≤ (W - 32) / (8 * s) := by
  unfold pageOf at h
  obtain ⟨a, _, ha⟩ := List.mem_flatMap.1 (List.mem_of_mem_take h)
  exact (wrap_cut (cap_pos hs hW) a).short l ha

theorem page_rows (W H s : Nat) (txt : List Nat) : (pageOf W H s txt).length ≤ (H - 32) / (16 * s) := by
  unfold pageOf
  rw [List.length_take]
  omega

theorem page_chars {W H s : Nat} (hs : 0 < s) (hW : 32 + 8 * s ≤ W) {txt : List Nat} (hb : ∀ c ∈ txt, c < 256) {l : List Nat}
    (h : l ∈ pageOf W H s txt) {c : Nat} (hc : c ∈ l) : c < 251 := by
  unfold pageOf at h
  obtain ⟨a, ha, hl⟩ := List.mem_flatMap.1 (List.mem_of_mem_take h)
  obtain ⟨ls, hbr⟩ := breaks_exists txt
  rw [split_breaks hbr, List.mem_map] at ha
  obtain ⟨l0, h0, e0⟩ := ha
  have : c ∈ a := by
    rw [← (wrap_cut (cap_pos hs hW) a).same]
    exact List.mem_flatten.2 ⟨l, hl, hc⟩
  rw [← e0, List.mem_map] at this
  obtain ⟨d, hd, e⟩ := this
  rw [← e]
  exact glyph_lt (hb d (breaks_mem hbr l0 h0 d hd))

end VS.Text
