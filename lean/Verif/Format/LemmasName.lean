import Verif.Format.Lemmas

/-! # Lemmas about format names -/

namespace VS.Format
open VS

theorem snprintf_of_lt {n : Nat} {s : List Char} (h : s.length < n) : snprintf n s = s := by
  unfold snprintf; exact List.take_of_length_le (by omega)

theorem snprintf_length (n : Nat) (s : List Char) : (snprintf (n + 1) s).length ≤ n := by
  unfold snprintf; rw [List.length_take]; omega

theorem digits_inj {a b : Nat} (h : Nat.toDigits 10 a = Nat.toDigits 10 b) : a = b := by
  rw [← Nat.ofDigitChars_toDigits (b := 10) (n := a) (by decide) (by decide), h,
    Nat.ofDigitChars_toDigits (by decide) (by decide)]

theorem digits_isDigit {n : Nat} {c : Char} (h : c ∈ Nat.toDigits 10 n) : c.isDigit = true :=
  Nat.isDigit_of_mem_toDigits (by decide) (by decide) h

theorem digits_length {n k : Nat} (hk : 0 < k) (h : n < 10 ^ k) : (Nat.toDigits 10 n).length ≤ k :=
  (Nat.length_toDigits_le_iff (by decide) hk).2 h

/-- A list is cut uniquely at the first element outside a class. -/
theorem split_unique {p : Char → Bool} : ∀ {l l' : List Char} {c c' : Char} {r r' : List Char},
    (∀ x ∈ l, p x = true) → (∀ x ∈ l', p x = true) → p c = false → p c' = false →
    l ++ c :: r = l' ++ c' :: r' → l = l' ∧ c :: r = c' :: r'
  | [], [], _, _, _, _, _, _, _, _, e => ⟨rfl, e⟩
  | [], y :: l', c, c', r, r', _, h', hc, _, e => by
    simp only [List.nil_append, List.cons_append, List.cons.injEq] at e
    have := h' y (by simp)
    rw [← e.1, hc] at this; exact absurd this (by decide)
  | x :: l, [], c, c', r, r', h, _, _, hc', e => by
    simp only [List.nil_append, List.cons_append, List.cons.injEq] at e
    have := h x (by simp)
    rw [e.1, hc'] at this; exact absurd this (by decide)
  | x :: l, y :: l', c, c', r, r', h, h', hc, hc', e => by
    simp only [List.cons_append, List.cons.injEq] at e
    have ih := split_unique (l := l) (l' := l') (fun z hz => h z (by simp [hz]))
      (fun z hz => h' z (by simp [hz])) hc hc' e.2
    exact ⟨by rw [e.1, ih.1], ih.2⟩

/-- What the suffix of a name is. -/
theorem suffix_cases {rgb c t b : Int}
    (d : (t = stInteger ∧ 8 ≤ b ∧ b ≤ 32) ∨ (t = stFloat ∧ (b = 16 ∨ b = 32))) :
    (t = 1 ∧ b = 32 ∧ suffix rgb c t b = ['S']) ∨ (t = 1 ∧ b = 16 ∧ suffix rgb c t b = ['H']) ∨
    (t = 0 ∧ 8 ≤ b ∧ b ≤ 32 ∧
      suffix rgb c t b = Nat.toDigits 10 ((if c = rgb then 3 else 1) * b.toNat)) := by
  unfold suffix
  rcases d with ⟨e, h1, h2⟩ | ⟨e, h | h⟩
  · right; right
    subst e
    refine ⟨rfl, h1, h2, ?_⟩
    rw [if_neg (by decide)]
    obtain ⟨n, rfl⟩ := Int.eq_ofNat_of_zero_le (show 0 ≤ b by omega)
    have key : ∀ k : Nat, 0 < k → k < 4 →
        snprintf 16 (fmtD ((k : Int) * n)) = Nat.toDigits 10 (k * (n : Int).toNat) := by
      intro k k0 k4
      have : k * n ≤ 3 * n := Nat.mul_le_mul_right _ (by omega)
      have e : ((k : Int) * n) = ((k * n : Nat) : Int) := by simp
      unfold fmtD
      rw [e, if_neg (by omega), Int.natAbs_natCast, Int.toNat_natCast, snprintf_of_lt]
      have := digits_length (n := k * n) (k := 2) (by omega) (by omega)
      omega
    split
    · exact key 3 (by omega) (by omega)
    · exact key 1 (by omega) (by omega)
  · subst e h; right; left; exact ⟨rfl, rfl, rfl⟩
  · subst e h; left; exact ⟨rfl, rfl, rfl⟩

theorem suffix_length {rgb c t b : Int}
    (d : (t = stInteger ∧ 8 ≤ b ∧ b ≤ 32) ∨ (t = stFloat ∧ (b = 16 ∨ b = 32))) :
    (suffix rgb c t b).length ≤ 2 := by
  rcases suffix_cases (rgb := rgb) (c := c) d with ⟨_, _, e⟩ | ⟨_, _, e⟩ | ⟨_, h1, h2, e⟩
  · rw [e]; decide
  · rw [e]; decide
  · rw [e]
    apply digits_length (by omega)
    split <;> omega

theorem not_mem_digits {c : Char} {n : Nat} (hc : c.isDigit = false) : Nat.toDigits 10 n ≠ [c] := by
  intro e
  have := digits_isDigit (n := n) (c := c) (by rw [e]; simp)
  rw [hc] at this; exact absurd this (by decide)

/-- The suffix tells the sample type and the number of bits. -/
theorem suffix_inj {rgb c t b t' b' : Int}
    (d : (t = stInteger ∧ 8 ≤ b ∧ b ≤ 32) ∨ (t = stFloat ∧ (b = 16 ∨ b = 32)))
    (d' : (t' = stInteger ∧ 8 ≤ b' ∧ b' ≤ 32) ∨ (t' = stFloat ∧ (b' = 16 ∨ b' = 32)))
    (h : suffix rgb c t b = suffix rgb c t' b') : t = t' ∧ b = b' := by
  rcases suffix_cases (rgb := rgb) (c := c) d with ⟨e1, e2, e⟩ | ⟨e1, e2, e⟩ | ⟨e1, h1, h2, e⟩ <;>
  rcases suffix_cases (rgb := rgb) (c := c) d' with ⟨f1, f2, f⟩ | ⟨f1, f2, f⟩ | ⟨f1, g1, g2, f⟩ <;>
  rw [e, f] at h
  · exact ⟨by omega, by omega⟩
  · exact absurd h (by decide)
  · exact absurd h.symm (not_mem_digits (by decide))
  · exact absurd h (by decide)
  · exact ⟨by omega, by omega⟩
  · exact absurd h.symm (not_mem_digits (by decide))
  · exact absurd h (not_mem_digits (by decide))
  · exact absurd h (not_mem_digits (by decide))
  · have := digits_inj h
    split at this <;> exact ⟨by omega, by omega⟩

/-- The part of a YUV name that tells the subsampling. -/
def yuvBody (w h : Int) : List Char :=
  match yuvName w h with
  | some y => y
  | none => "ssw".toList ++ fmtD w ++ "ssh".toList ++ fmtD h

theorem yuvBody_form : ∀ w < 5, ∀ h < 5,
    (yuvBody (w : Nat) (h : Nat)).length ≤ 8 ∧ (yuvBody (w : Nat) (h : Nat)).all (· != 'P') = true := by
  decide +kernel

/-- All pairs of subsampling factors, coded in base five, and the texts for them. -/
theorem yuvBody_nodup :
    ((List.range 25).map fun i => yuvBody ((i / 5 : Nat) : Int) ((i % 5 : Nat) : Int)).Nodup := by
  decide +kernel

theorem yuvBody_inj {w h w' h' : Nat} (hw : w < 5) (hh : h < 5) (hw' : w' < 5) (hh' : h' < 5)
    (e : yuvBody w h = yuvBody w' h') : w = w' ∧ h = h' := by
  have key : 5 * w + h = 5 * w' + h' := by
    have at_ : ∀ a b : Nat, a < 5 → b < 5 →
        ((List.range 25).map fun i => yuvBody ((i / 5 : Nat) : Int) ((i % 5 : Nat) : Int))[5 * a + b]? =
          some (yuvBody a b) := by
      intro a b ha hb
      rw [List.getElem?_map, List.getElem?_range (by omega), Option.map_some]
      have e1 : (5 * a + b) / 5 = a := by omega
      have e2 : (5 * a + b) % 5 = b := by omega
      rw [e1, e2]
    refine (List.getElem?_inj (by rw [List.length_map, List.length_range]; omega) yuvBody_nodup).1 ?_
    rw [at_ w h hw hh, at_ w' h' hw' hh', e]
  omega

theorem yuv_eq {w h : Int} {suf : List Char} (hw : 0 ≤ w ∧ w ≤ 4) (hh : 0 ≤ h ∧ h ≤ 4)
    (hs : suf.length ≤ 2) :
    yuvFormatName w h suf = "YUV".toList ++ (yuvBody w h ++ 'P' :: suf) ∧
    (yuvFormatName w h suf).length ≤ 31 ∧ ∀ x ∈ yuvBody w h, (x != 'P') = true := by
  obtain ⟨w, rfl⟩ := Int.eq_ofNat_of_zero_le hw.1
  obtain ⟨h, rfl⟩ := Int.eq_ofNat_of_zero_le hh.1
  obtain ⟨l, a⟩ := yuvBody_form w (by omega) h (by omega)
  rw [List.all_eq_true] at a
  have e : yuvFormatName w h suf = snprintf 32 ("YUV".toList ++ (yuvBody w h ++ 'P' :: suf)) := by
    unfold yuvFormatName yuvBody
    cases yuvName w h with
    | none => simp
    | some y => simp
  have lt : ("YUV".toList ++ (yuvBody w h ++ 'P' :: suf)).length < 32 := by
    simp only [List.length_append, List.length_cons]
    have : "YUV".toList.length = 3 := by decide
    omega
  rw [e, snprintf_of_lt lt]
  exact ⟨rfl, by omega, a⟩

theorem yuv_inj {w h w' h' : Int} {suf suf' : List Char} (hw : 0 ≤ w ∧ w ≤ 4) (hh : 0 ≤ h ∧ h ≤ 4)
    (hw' : 0 ≤ w' ∧ w' ≤ 4) (hh' : 0 ≤ h' ∧ h' ≤ 4) (hs : suf.length ≤ 2) (hs' : suf'.length ≤ 2)
    (e : yuvFormatName w h suf = yuvFormatName w' h' suf') : w = w' ∧ h = h' ∧ suf = suf' := by
  obtain ⟨e1, _, a⟩ := yuv_eq hw hh hs
  obtain ⟨e2, _, a'⟩ := yuv_eq hw' hh' hs'
  rw [e1, e2, List.append_cancel_left_eq] at e
  obtain ⟨k1, k2⟩ := split_unique a a' (by decide) (by decide) e
  obtain ⟨w, rfl⟩ := Int.eq_ofNat_of_zero_le hw.1
  obtain ⟨h, rfl⟩ := Int.eq_ofNat_of_zero_le hh.1
  obtain ⟨w', rfl⟩ := Int.eq_ofNat_of_zero_le hw'.1
  obtain ⟨h', rfl⟩ := Int.eq_ofNat_of_zero_le hh'.1
  obtain ⟨m1, m2⟩ := yuvBody_inj (by omega) (by omega) (by omega) (by omega) k1
  simp only [List.cons.injEq, true_and] at k2
  exact ⟨by omega, by omega, k2⟩

/-- The name of a documented format. -/
theorem name_documented (f : VFmt)
    (d : Documented f.colorFamily f.sampleType f.bitsPerSample f.subSamplingW f.subSamplingH) :
    getVideoFormatName f = some (
      if f.colorFamily = cfGray then
        "Gray".toList ++ suffix cfRGB f.colorFamily f.sampleType f.bitsPerSample
      else if f.colorFamily = cfRGB then
        "RGB".toList ++ suffix cfRGB f.colorFamily f.sampleType f.bitsPerSample
      else yuvFormatName f.subSamplingW f.subSamplingH
        (suffix cfRGB f.colorFamily f.sampleType f.bitsPerSample)) := by
  have hc : f.colorFamily ≠ cfUndefined := by
    have := d.1; simp only [cfGray, cfRGB, cfYUV, cfUndefined] at *; omega
  have hv := (valid_iff hc).2 d
  have hl := suffix_length (rgb := cfRGB) (c := f.colorFamily) d.2.1
  unfold getVideoFormatName
  simp only [hv, Bool.not_true, Bool.false_eq_true, if_false]
  split
  · rw [snprintf_of_lt]
    rw [List.length_append]
    have : "Gray".toList.length = 4 := by decide
    omega
  · split
    · rw [snprintf_of_lt]
      rw [List.length_append]
      have : "RGB".toList.length = 3 := by decide
      omega
    · rw [if_pos]
      have := d.1
      simp_all

end VS.Format
