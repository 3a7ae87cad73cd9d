import Verif.Resample.PropsMix

/-!
# C97: symmetry and normalization of the mixing matrix
-/

namespace VS.Resample

set_option maxRecDepth 10000

open VS VS.Audio VS.Gain

/-! ## Left and right -/

theorem mirror_big {c : Nat} (h : 36 ≤ c) : Spec.mirror c = c := by
  obtain ⟨k, rfl⟩ : ∃ k, c = k + 36 := ⟨c - 36, by omega⟩
  rfl

theorem mirror_mirror (c : Nat) : Spec.mirror (Spec.mirror c) = c := by
  by_cases h : 36 ≤ c
  · rw [mirror_big h, mirror_big h]
  · have : c < 36 := by omega
    interval_cases c <;> rfl

theorem mirror_inj {a b : Nat} : Spec.mirror a = Spec.mirror b ↔ a = b :=
  ⟨fun h => by rw [← mirror_mirror a, h, mirror_mirror], fun h => by rw [h]⟩

theorem mirror_ground (c : Nat) : groundEquivalent (Spec.mirror c) = Spec.mirror (groundEquivalent c) := by
  by_cases h : 36 ≤ c
  · rw [mirror_big h, ground_big h, mirror_big h]
  · have : c < 36 := by omega
    interval_cases c <;> rfl

/-- The rules for a channel without place in the output. -/
def foldRest (F : RFloats) (has : Nat → Bool) (channel : Nat) : List (Nat × Rat) :=
  match channel with
      | 2 =>
        if has 0 && has 1 then [(0, level), (1, level)]
        else if has 0 then [(0, level)]
        else if has 1 then [(1, level)]
        else []
      | 0 => if has 2 then [(2, level)] else if has 1 then [(1, level)] else []
      | 1 => if has 2 then [(2, level)] else if has 0 then [(0, level)] else []
      | 4 => foldSurround F has 9 0
      | 9 => foldSurround F has 4 0
      | 5 => foldSurround F has 10 1
      | 10 => foldSurround F has 5 1
      | 8 =>
        if has 4 && has 5 then [(4, level), (5, level)]
        else if has 9 && has 10 then [(9, level), (10, level)]
        else if has 0 && has 1 then [(0, F.rnd (level * level)), (1, F.rnd (level * level))]
        else if has 2 then [(2, level)]
        else []
      | 6 => if has 0 && has 2 then [(0, level), (2, level)] else if has 0 then [(0, 1)] else if has 2 then [(2, 1)] else []
      | 7 => if has 1 && has 2 then [(1, level), (2, level)] else if has 1 then [(1, 1)] else if has 2 then [(2, 1)] else []
      | 3 => if has 35 then [(35, 1)] else []
      | 35 => if has 3 then [(3, 1)] else []
      | _ => []

theorem fold_eq (F : RFloats) (has : Nat → Bool) (c : Nat) : foldChannel F has c =
    if has c then [(c, 1)] else if has (groundEquivalent c) then [(groundEquivalent c, 1)] else foldRest F has (groundEquivalent c) := rfl

/-- The calls for one side and for the other. -/
inductive Mirrored : List (Nat × Rat) → List (Nat × Rat) → Prop
  | nil : Mirrored [] []
  | single (a : Nat) (w : Rat) : Mirrored [(a, w)] [(Spec.mirror a, w)]
  | pair (a b : Nat) (w : Rat) : a ≠ b → Mirrored [(a, w), (b, w)] [(Spec.mirror a, w), (Spec.mirror b, w)]
  | swapped (a b : Nat) (w : Rat) : a ≠ b → Mirrored [(a, w), (b, w)] [(Spec.mirror b, w), (Spec.mirror a, w)]

theorem mirrored_entry (F : RFloats) {l l' : List (Nat × Rat)} (h : Mirrored l l') (o : Nat) :
    entryOf F l' (Spec.mirror o) = entryOf F l o := by
  cases h with
  | nil => rfl
  | single a w => rw [entry_single, entry_single]; simp only [mirror_inj]
  | pair a b w h =>
    rw [entry_pair F h, entry_pair F (fun e => h (mirror_inj.1 e))]; simp only [mirror_inj]
  | swapped a b w h =>
    rw [entry_pair F h, entry_pair F (fun e => h (mirror_inj.1 e.symm))]; simp only [mirror_inj, or_comm]

theorem rest_mirror (F : RFloats) (has has' : Nat → Bool) (h : ∀ c, has' (Spec.mirror c) = has c) (g : Nat) :
    Mirrored (foldRest F has g) (foldRest F has' (Spec.mirror g)) := by
  have e0 : has' 1 = has 0 := h 0
  have e1 : has' 0 = has 1 := h 1
  have e2 : has' 2 = has 2 := h 2
  have e3 : has' 3 = has 3 := h 3
  have e4 : has' 5 = has 4 := h 4
  have e5 : has' 4 = has 5 := h 5
  have e9 : has' 10 = has 9 := h 9
  have e10 : has' 9 = has 10 := h 10
  have e35 : has' 35 = has 35 := h 35
  by_cases hg : 36 ≤ g
  · obtain ⟨k, rfl⟩ : ∃ k, g = k + 36 := ⟨g - 36, by omega⟩
    exact .nil
  · have : g < 36 := by omega
    interval_cases g
    all_goals try exact .nil
    all_goals simp only [Spec.mirror, foldRest, foldSurround, e0, e1, e2, e3, e4, e5, e9, e10, e35]
    all_goals cases has 0 <;> cases has 1 <;> cases has 2
    all_goals first
      | exact .nil
      | exact .single _ _
      | exact .pair _ _ _ (by decide)
      | exact .swapped _ _ _ (by decide)
      | (cases has 3 <;> first | exact .nil | exact .single _ _)
      | (cases has 35 <;> first | exact .nil | exact .single _ _)
      | (cases has 4 <;> first | exact .nil | exact .single _ _ | (cases has 5 <;> cases has 9 <;> cases has 10 <;> first | exact .nil | exact .single _ _ | exact .pair _ _ _ (by decide) | exact .swapped _ _ _ (by decide)))

/-- **C97 (symmetry).**  Left and right are treated alike: exchanging them in the output layout exchanges them in the matrix. -/
theorem C97_symmetry (F : RFloats) (inL inL' outL outL' : Nat) (h : ∀ c, outL'.testBit (Spec.mirror c) = outL.testBit c) (o i : Nat) :
    mixMatrix F inL' outL' false (Spec.mirror o) (Spec.mirror i) = mixMatrix F inL outL false o i := by
  rw [matrix_plain, matrix_plain]
  apply mirrored_entry
  rw [fold_eq, fold_eq, mirror_ground, h, h]
  by_cases h1 : outL.testBit i = true
  · rw [if_pos h1, if_pos h1]; exact .single _ _
  rw [if_neg h1, if_neg h1]
  by_cases h2 : outL.testBit (groundEquivalent i) = true
  · rw [if_pos h2, if_pos h2]; exact .single _ _
  rw [if_neg h2, if_neg h2]
  exact rest_mirror F _ _ h _

/-! ## Normalization -/

theorem entry_bounds (F : RFloats) (outL o i : Nat) : 0 ≤ mixEntry F outL o i ∧ mixEntry F outL o i ≤ 1 := by
  have hw : ∀ w, w = 1 ∨ w = level ∨ w = F.rnd (level * level) → 0 ≤ F.rnd w ∧ F.rnd w ≤ 1 := by
    rintro w (h | h | h) <;> subst h
    · rw [rnd_one]; norm_num
    · rw [rnd_level]; unfold level; norm_num
    · have := rnd_near F (square_ok F)
      unfold Spec.Minus6dB at this
      rw [abs_le] at this
      constructor <;> linarith [this.1, this.2]
  show 0 ≤ entryOf F (foldChannel F outL.testBit i) o ∧ entryOf F (foldChannel F outL.testBit i) o ≤ 1
  have hs := fold_shape F outL.testBit i
  generalize foldChannel F outL.testBit i = l at hs
  cases hs with
  | nil => exact ⟨le_refl _, by unfold entryOf; norm_num⟩
  | single a w _ h =>
    rw [entry_single]
    split
    · exact hw w h
    · norm_num
  | pair a b w _ _ hne h =>
    rw [entry_pair F hne]
    split
    · exact hw w (Or.inr h)
    · norm_num

theorem tiny_le : (1 : Rat) / 2 ^ 1075 ≤ 1 / 2 ^ 59 := by
  apply one_div_le_one_div_of_le (by positivity)
  exact pow_le_1024 (by omega)

/-- The sum of a row as it is computed, at most 64 values up to 1: the error of each step is at most 2^-46. -/
theorem sum_close (F : RFloats) (m : Nat → Rat) (hm : ∀ i, 0 ≤ m i ∧ m i ≤ 1) : ∀ (l : List Nat) (acc : Rat) (n : Nat),
    l.length + n ≤ 64 → 0 ≤ acc → acc ≤ 2 * n →
    (l.map fun i => |m i|).sum + acc - l.length * (1 / 2 ^ 45) ≤ l.foldl (fun sum i => F.rnd (sum + |m i|)) acc
  | [], acc, n, _, _, _ => by simp
  | i :: l, acc, n, hl, h0, h1 => by
    simp only [List.length_cons] at hl
    have hn : (n : Rat) ≤ 63 := by exact_mod_cast (by omega : n ≤ 63)
    have hi := hm i
    have hc := F.rnd_close (acc + |m i|)
    have ht := tiny_le
    generalize (1 : Rat) / 2 ^ 1075 = tiny at *
    rw [List.foldl_cons]
    have habs : |m i| = m i := abs_of_nonneg hi.1
    rw [habs] at hc ⊢
    have hs0 : 0 ≤ acc + m i := by linarith
    rw [abs_of_nonneg hs0] at hc
    have hs1 : acc + m i ≤ 128 := by linarith
    have he : (acc + m i) / 2 ^ 53 ≤ 1 / 2 ^ 46 := by
      rw [div_le_div_iff₀ (by positivity) (by positivity)]
      have : (128 : Rat) * 2 ^ 46 = 1 * 2 ^ 53 := by norm_num
      have : (acc + m i) * 2 ^ 46 ≤ 128 * 2 ^ 46 := mul_le_mul_of_nonneg_right hs1 (by positivity)
      linarith
    have hq : (1 : Rat) / 2 ^ 46 + 1 / 2 ^ 59 ≤ 1 / 2 ^ 45 := by norm_num
    have a2 := abs_le.1 hc
    have hz : F.rnd 0 = 0 := by have := rnd_nat F.toDFloats 0 (by omega); simpa using this
    have hp := F.rnd_mono _ _ hs0
    rw [hz] at hp
    have hsmall : (1 : Rat) / 2 ^ 45 ≤ 1 := by norm_num
    have ih := sum_close F m hm l (F.rnd (acc + m i)) (n + 1) (by omega) hp (by push_cast; linarith [a2.2])
    simp only [List.map_cons, List.sum_cons, habs, List.length_cons]
    push_cast
    linarith [a2.1]

theorem peak_ge (F : RFloats) (ins : List Nat) (m : Nat → Nat → Rat) : ∀ (outs : List Nat) (p0 : Rat),
    p0 ≤ outs.foldl (fun peak o => max peak (ins.foldl (fun sum i => F.rnd (sum + |m o i|)) 0)) p0 ∧
    ∀ o ∈ outs, ins.foldl (fun sum i => F.rnd (sum + |m o i|)) 0 ≤
      outs.foldl (fun peak o => max peak (ins.foldl (fun sum i => F.rnd (sum + |m o i|)) 0)) p0
  | [], p0 => ⟨le_refl _, by simp⟩
  | o :: outs, p0 => by
    rw [List.foldl_cons]
    obtain ⟨h1, h2⟩ := peak_ge F ins m outs (max p0 (ins.foldl (fun sum i => F.rnd (sum + |m o i|)) 0))
    refine ⟨le_trans (le_max_left _ _) h1, ?_⟩
    intro o' ho'
    rw [List.mem_cons] at ho'
    rcases ho' with h | h
    · subst h; exact le_trans (le_max_right _ _) h1
    · exact h2 o' h

theorem div_sum (F : RFloats) (m : Nat → Rat) (hm : ∀ i, 0 ≤ m i ∧ m i ≤ 1) (s : Rat) (hs : 1 ≤ s) : ∀ l : List Nat,
    (l.map fun i => |F.rnd (m i / s)|).sum ≤ (l.map fun i => |m i|).sum / s + l.length * (1 / 2 ^ 52)
  | [] => by simp
  | i :: l => by
    have ih := div_sum F m hm s hs l
    have hi := hm i
    have hs0 : 0 < s := by linarith
    have hc := F.rnd_close (m i / s)
    have ht := tiny_le
    generalize (1 : Rat) / 2 ^ 1075 = tiny at *
    have hd0 : 0 ≤ m i / s := div_nonneg hi.1 hs0.le
    have hd1 : m i / s ≤ 1 := by rw [div_le_one hs0]; linarith
    rw [abs_of_nonneg hd0] at hc
    have he : m i / s / 2 ^ 53 ≤ 1 / 2 ^ 53 := by apply div_le_div_of_nonneg_right hd1; positivity
    have hq : (1 : Rat) / 2 ^ 53 + 1 / 2 ^ 59 ≤ 1 / 2 ^ 52 := by norm_num
    have a2 := abs_le.1 hc
    have hz : F.rnd 0 = 0 := by have := rnd_nat F.toDFloats 0 (by omega); simpa using this
    have hp := F.rnd_mono _ _ hd0
    rw [hz] at hp
    simp only [List.map_cons, List.sum_cons, List.length_cons]
    rw [abs_of_nonneg hp, abs_of_nonneg hi.1, add_div]
    push_cast
    linarith [a2.2]

/-- **C97 (normalization).**  With normalization all weights are divided by the same number, which is at least 1, and no output channel
can get louder than full scale: the sum of its weights is at most 1, up to rounding.  Weights that need no normalization stay as they are. -/
theorem C97_normalised (F : RFloats) (inL outL : Nat) :
    (∃ s : Rat, 1 ≤ s ∧ ∀ o i, mixMatrix F inL outL true o i = mixMatrix F inL outL false o i ∧ s = 1 ∨
      1 < s ∧ mixMatrix F inL outL true o i = F.rnd (mixMatrix F inL outL false o i / s)) ∧
    ∀ o, o < 64 → outL.testBit o = true → Spec.rowSum inL (mixMatrix F inL outL true o) ≤ 1 + 1 / 2 ^ 38 := by
  have hplain : ∀ o i, mixMatrix F inL outL false o i = mixEntry F outL o i := by
    intro o i; unfold mixMatrix; rw [if_neg (by simp)]
  generalize hP : mixPeak F (layoutChannels inL) (layoutChannels outL) (mixEntry F outL) = P
  have hlen : (layoutChannels inL).length ≤ 64 := by
    unfold layoutChannels
    exact le_trans (List.length_filter_le _ _) (by simp)
  have hlen' : ((layoutChannels inL).length : Rat) ≤ 64 := by exact_mod_cast hlen
  have hrow : ∀ o, o < 64 → outL.testBit o = true → ((layoutChannels inL).map fun i => |mixEntry F outL o i|).sum ≤ P + 64 * (1 / 2 ^ 45) := by
    intro o ho hb
    have h1 := sum_close F (mixEntry F outL o) (entry_bounds F outL o) (layoutChannels inL) 0 0 (by omega) (le_refl _) (by simp)
    have h2 := (peak_ge F (layoutChannels inL) (mixEntry F outL) (layoutChannels outL) 0).2 o (layoutChannels_mem.2 ⟨ho, hb⟩)
    unfold mixPeak at hP
    rw [hP] at h2
    have : ((layoutChannels inL).length : Rat) * (1 / 2 ^ 45) ≤ 64 * (1 / 2 ^ 45) := mul_le_mul_of_nonneg_right hlen' (by positivity)
    linarith
  by_cases hgt : P > 1
  · have hn : ∀ o i, mixMatrix F inL outL true o i = F.rnd (mixEntry F outL o i / P) := by
      intro o i
      unfold mixMatrix
      simp only [hP]
      rw [if_pos (by simp [hgt])]
    refine ⟨⟨P, hgt.le, fun o i => Or.inr ⟨hgt, by rw [hn, hplain]⟩⟩, ?_⟩
    intro o ho hb
    unfold Spec.rowSum
    have e : ((layoutChannels inL).map fun i => |mixMatrix F inL outL true o i|) = (layoutChannels inL).map fun i => |F.rnd (mixEntry F outL o i / P)| := by
      apply List.map_congr_left
      intro i _
      rw [hn]
    rw [e]
    have h1 := div_sum F (mixEntry F outL o) (entry_bounds F outL o) P hgt.le (layoutChannels inL)
    have hP0 : 0 < P := by linarith
    have h2 : ((layoutChannels inL).map fun i => |mixEntry F outL o i|).sum / P ≤ 1 + 64 * (1 / 2 ^ 45) := by
      rw [div_le_iff₀ hP0]
      have := hrow o ho hb
      have : (64 : Rat) * (1 / 2 ^ 45) * 1 ≤ 64 * (1 / 2 ^ 45) * P := mul_le_mul_of_nonneg_left hgt.le (by positivity)
      linarith
    have h3 : ((layoutChannels inL).length : Rat) * (1 / 2 ^ 52) ≤ 64 * (1 / 2 ^ 52) := mul_le_mul_of_nonneg_right hlen' (by positivity)
    have h4 : (64 : Rat) * (1 / 2 ^ 45) + 64 * (1 / 2 ^ 52) ≤ 1 / 2 ^ 38 := by norm_num
    linarith
  · have hn : ∀ o i, mixMatrix F inL outL true o i = mixEntry F outL o i := by
      intro o i
      unfold mixMatrix
      simp only [hP]
      rw [if_neg (by simp [hgt])]
    refine ⟨⟨1, le_refl _, fun o i => Or.inl ⟨by rw [hn, hplain], rfl⟩⟩, ?_⟩
    intro o ho hb
    unfold Spec.rowSum
    have e : ((layoutChannels inL).map fun i => |mixMatrix F inL outL true o i|) = (layoutChannels inL).map fun i => |mixEntry F outL o i| := by
      apply List.map_congr_left
      intro i _
      rw [hn]
    rw [e]
    have := hrow o ho hb
    have h4 : (64 : Rat) * (1 / 2 ^ 45) ≤ 1 / 2 ^ 38 := by norm_num
    linarith

/-! ## Stereo and mono -/

/-- **C97 (stereo).**  The mix to stereo: front left and everything that stands in for it, plus center, back and side at -3 dB, plus back center
at -6 dB; no low frequencies. -/
theorem C97_stereo (F : RFloats) (inL : Nat) :
    (∀ i ∈ [0, 6, 12, 29, 31], mixMatrix F inL 3 false 0 i = 1 ∧ mixMatrix F inL 3 false 1 i = 0) ∧
    (∀ i ∈ [4, 9, 15, 33], Spec.Minus3dB (mixMatrix F inL 3 false 0 i) ∧ mixMatrix F inL 3 false 1 i = 0) ∧
    (∀ i ∈ [2, 11, 13], Spec.Minus3dB (mixMatrix F inL 3 false 0 i) ∧ Spec.Minus3dB (mixMatrix F inL 3 false 1 i)) ∧
    (∀ i ∈ [8, 16], Spec.Minus6dB (mixMatrix F inL 3 false 0 i) ∧ Spec.Minus6dB (mixMatrix F inL 3 false 1 i)) ∧
    (∀ i ∈ [3, 35], mixMatrix F inL 3 false 0 i = 0 ∧ mixMatrix F inL 3 false 1 i = 0) := by
  have r1 := rnd_one F
  have rl := rnd_level F
  have ll := level_ok
  have rq := rnd_near F (square_ok F)
  have b : ∀ i o l, foldChannel F (Nat.testBit 3) i = l → mixMatrix F inL 3 false o i = entryOf F l o := by
    intro i o l h; rw [matrix_plain, h]
  refine ⟨?_, ?_, ?_, ?_, ?_⟩ <;> intro i hi <;> simp only [List.mem_cons, List.not_mem_nil, or_false] at hi
  · rcases hi with h | h | h | h | h <;> subst h <;> rw [b _ 0 [(0, 1)] rfl, b _ 1 [(0, 1)] rfl, entry_single, entry_single] <;> simp [r1]
  · rcases hi with h | h | h | h <;> subst h <;> rw [b _ 0 [(0, level)] rfl, b _ 1 [(0, level)] rfl, entry_single, entry_single] <;> simp [rl, ll]
  · rcases hi with h | h | h <;> subst h <;>
      rw [b _ 0 [(0, level), (1, level)] rfl, b _ 1 [(0, level), (1, level)] rfl, entry_pair F (by decide), entry_pair F (by decide)] <;> simp [rl, ll]
  · rcases hi with h | h <;> subst h <;>
      rw [b _ 0 [(0, F.rnd (level * level)), (1, F.rnd (level * level))] rfl, b _ 1 [(0, F.rnd (level * level)), (1, F.rnd (level * level))] rfl,
        entry_pair F (by decide), entry_pair F (by decide)] <;> simp [rq]
  · rcases hi with h | h <;> subst h <;> rw [b _ 0 [] rfl, b _ 1 [] rfl] <;> exact ⟨rfl, rfl⟩

/-- The conditions of the theorems above: 5.1 to stereo; the low frequency channel is dropped, the rest is heard. -/
example (F : RFloats) : Spec.Named 4 ∧ ¬ Spec.Named 3 ∧ (3 : Nat).testBit 0 = true ∧ (3 : Nat).testBit 1 = true ∧
    mixMatrix F 63 3 false 0 2 ≠ 0 ∧ (∀ c, (3 : Nat).testBit (Spec.mirror c) = (3 : Nat).testBit c) := by
  refine ⟨by unfold Spec.Named; omega, by unfold Spec.Named; omega, rfl, rfl, ?_, ?_⟩
  · have := ((C97_stereo F 63).2.2.1 2 (by simp)).1.1
    exact ne_of_gt this
  · intro c
    by_cases h : 36 ≤ c
    · rw [mirror_big h]
    · have : c < 36 := by omega
      interval_cases c <;> rfl

end VS.Resample
