import Verif.Resample.PropsRate

/-!
# C97: the mixing matrix of AudioResample
-/

namespace VS.Resample

set_option maxRecDepth 10000

open VS VS.Audio VS.Gain

namespace Spec

/-- -3 dB: the square is 1/2, as far as a `double` can say. -/
def Minus3dB (w : Rat) : Prop := 0 < w ∧ |w * w - 1 / 2| ≤ 1 / 2 ^ 52

/-- -6 dB, made from -3 dB twice. -/
def Minus6dB (w : Rat) : Prop := |w - 1 / 2| ≤ 1 / 64

/-- Where an input channel goes: `m o` is its weight in output channel `o`. -/
inductive Goes (out : Nat → Prop) (m : Nat → Rat) : Prop
  /-- nowhere -/
  | dropped : (∀ o, m o = 0) → Goes out m
  /-- into one output channel -/
  | single (o : Nat) : out o → (m o = 1 ∨ Minus3dB (m o) ∨ Minus6dB (m o)) → (∀ o', o' ≠ o → m o' = 0) → Goes out m
  /-- into two output channels, to equal parts -/
  | pair (o₁ o₂ : Nat) : out o₁ → out o₂ → o₁ ≠ o₂ → m o₁ = m o₂ → (Minus3dB (m o₁) ∨ Minus6dB (m o₁)) →
      (∀ o', o' ≠ o₁ → o' ≠ o₂ → m o' = 0) → Goes out m

/-- Low frequency channels. -/
def Lfe (c : Nat) : Prop := c = 3 ∨ c = 35

/-- The channels that have a name in VapourSynth4.h and are no low frequency channels. -/
def Named (c : Nat) : Prop := c ≤ 17 ∧ c ≠ 3 ∨ 29 ≤ c ∧ c ≤ 34

/-- Left and right exchanged. -/
def mirror (c : Nat) : Nat :=
  match c with
  | 0 => 1 | 1 => 0
  | 4 => 5 | 5 => 4
  | 6 => 7 | 7 => 6
  | 9 => 10 | 10 => 9
  | 12 => 14 | 14 => 12
  | 15 => 17 | 17 => 15
  | 29 => 30 | 30 => 29
  | 31 => 32 | 32 => 31
  | 33 => 34 | 34 => 33
  | c => c

/-- The sum of the weights of the input channels. -/
def rowSum (inLayout : Nat) (m : Nat → Rat) : Rat := ((layoutChannels inLayout).map fun i => |m i|).sum

end Spec

/-! ## One column -/

/-- `add` for a list of calls. -/
def entryOf (F : RFloats) (l : List (Nat × Rat)) (o : Nat) : Rat := l.foldl (fun acc p => if p.1 = o then F.rnd (acc + p.2) else acc) 0

theorem entry_single (F : RFloats) (a : Nat) (w : Rat) (o : Nat) : entryOf F [(a, w)] o = if a = o then F.rnd w else 0 := by
  unfold entryOf; simp

theorem entry_pair (F : RFloats) {a b : Nat} (h : a ≠ b) (w : Rat) (o : Nat) :
    entryOf F [(a, w), (b, w)] o = if a = o ∨ b = o then F.rnd w else 0 := by
  unfold entryOf
  by_cases h1 : a = o
  · have : b ≠ o := fun h2 => h (h1.trans h2.symm)
    simp [h1, this]
  · simp [h1]

theorem rnd_level (F : RFloats) : F.rnd level = level := by
  have := F.rnd_frac 6369051672525773 53 (by decide) (by omega)
  have e : level = ((6369051672525773 : Int) : Rat) / 2 ^ 53 := by unfold level; norm_num
  rw [e]; exact this

theorem rnd_one (F : RFloats) : F.rnd 1 = 1 := by
  have := rnd_nat F.toDFloats 1 (by norm_num)
  simpa using this

theorem level_ok : Spec.Minus3dB level := by
  unfold Spec.Minus3dB level
  refine ⟨by norm_num, ?_⟩
  rw [abs_le]
  constructor <;> norm_num

theorem rnd_near (F : RFloats) {w : Rat} (h : Spec.Minus6dB w) : Spec.Minus6dB (F.rnd w) := by
  unfold Spec.Minus6dB at *
  rw [abs_le] at *
  have h1 : ((31 : Int) : Rat) / 2 ^ 6 ≤ w := by norm_num; linarith
  have h2 : w ≤ ((33 : Int) : Rat) / 2 ^ 6 := by norm_num; linarith
  have k1 := F.rnd_mono _ _ h1
  have k2 := F.rnd_mono _ _ h2
  rw [F.rnd_frac _ 6 (by decide) (by omega)] at k1 k2
  norm_num at k1 k2
  constructor <;> linarith

theorem square_ok (F : RFloats) : Spec.Minus6dB (F.rnd (level * level)) := by
  apply rnd_near
  unfold Spec.Minus6dB level
  rw [abs_le]
  constructor <;> norm_num

/-- The shapes of the lists of calls. -/
inductive Shape (F : RFloats) (has : Nat → Bool) : List (Nat × Rat) → Prop
  | nil : Shape F has []
  | single (o : Nat) (w : Rat) : has o = true → (w = 1 ∨ w = level ∨ w = F.rnd (level * level)) → Shape F has [(o, w)]
  | pair (o₁ o₂ : Nat) (w : Rat) : has o₁ = true → has o₂ = true → o₁ ≠ o₂ → (w = level ∨ w = F.rnd (level * level)) →
      Shape F has [(o₁, w), (o₂, w)]

theorem surround_shape (F : RFloats) (has : Nat → Bool) (alt front : Nat) : Shape F has (foldSurround F has alt front) := by
  unfold foldSurround
  by_cases h1 : has alt = true
  · rw [if_pos h1]; exact .single _ _ h1 (by simp)
  rw [if_neg h1]
  by_cases h2 : has front = true
  · rw [if_pos h2]; exact .single _ _ h2 (by simp)
  rw [if_neg h2]
  by_cases h3 : has 2 = true
  · rw [if_pos h3]; exact .single _ _ h3 (by simp)
  rw [if_neg h3]; exact .nil

theorem fold_shape (F : RFloats) (has : Nat → Bool) (c : Nat) : Shape F has (foldChannel F has c) := by
  unfold foldChannel
  by_cases h1 : has c = true
  · rw [if_pos h1]; exact .single _ _ h1 (by simp)
  rw [if_neg h1]
  simp only
  by_cases h2 : has (groundEquivalent c) = true
  · rw [if_pos h2]; exact .single _ _ h2 (by simp)
  rw [if_neg h2]
  split <;> (try exact surround_shape F has _ _) <;> (try exact .nil)
  all_goals
    repeat' split
  all_goals first
    | exact .nil
    | (rename_i h; rw [Bool.and_eq_true] at h; exact .pair _ _ _ h.1 h.2 (by decide) (by simp))
    | (rename_i h; exact .single _ _ h (by simp))

theorem shape_goes (F : RFloats) (has : Nat → Bool) (l : List (Nat × Rat)) (h : Shape F has l) :
    Spec.Goes (fun o => has o = true) (entryOf F l) := by
  cases h with
  | nil => exact .dropped (fun _ => rfl)
  | single o w ho hw =>
    refine .single o ho ?_ ?_
    · rw [entry_single, if_pos rfl]
      rcases hw with h | h | h <;> subst h
      · left; exact rnd_one F
      · right; left; rw [rnd_level]; exact level_ok
      · right; right; exact rnd_near F (square_ok F)
    · intro o' h'
      rw [entry_single, if_neg (fun e => h' e.symm)]
  | pair o₁ o₂ w h1 h2 hne hw =>
    refine .pair o₁ o₂ h1 h2 hne ?_ ?_ ?_
    · rw [entry_pair F hne, entry_pair F hne, if_pos (Or.inl rfl), if_pos (Or.inr rfl)]
    · rw [entry_pair F hne, if_pos (Or.inl rfl)]
      rcases hw with h | h <;> subst h
      · left; rw [rnd_level]; exact level_ok
      · right; exact rnd_near F (square_ok F)
    · intro o' a b
      rw [entry_pair F hne, if_neg (by rintro (e | e); exacts [a e.symm, b e.symm])]

theorem matrix_plain (F : RFloats) (inL outL : Nat) (o i : Nat) :
    mixMatrix F inL outL false o i = entryOf F (foldChannel F outL.testBit i) o := by
  unfold mixMatrix
  rw [if_neg (by simp)]
  rfl

/-- **C97 (columns).**  Without normalization an input channel that exists in the output passes with weight 1, to its own place only;
every other channel goes nowhere, into one output channel at 0, -3 or -6 dB, or to equal parts into two at -3 or -6 dB.  It only
goes into channels of the output. -/
theorem C97_columns (F : RFloats) (inL outL : Nat) (i : Nat) :
    (outL.testBit i = true → mixMatrix F inL outL false i i = 1 ∧ ∀ o, o ≠ i → mixMatrix F inL outL false o i = 0) ∧
    Spec.Goes (fun o => outL.testBit o = true) (fun o => mixMatrix F inL outL false o i) := by
  have e : (fun o => mixMatrix F inL outL false o i) = entryOf F (foldChannel F outL.testBit i) := by
    funext o; exact matrix_plain F inL outL o i
  refine ⟨?_, ?_⟩
  · intro h
    have hl : foldChannel F outL.testBit i = [(i, 1)] := by unfold foldChannel; rw [if_pos h]
    rw [matrix_plain, hl, entry_single, if_pos rfl]
    refine ⟨rnd_one F, ?_⟩
    intro o ho
    rw [matrix_plain, hl, entry_single, if_neg (fun e => ho e.symm)]
  · rw [e]
    exact shape_goes F _ _ (fold_shape F _ i)

theorem entry_ne (F : RFloats) (has : Nat → Bool) (l : List (Nat × Rat)) (h : Shape F has l) (hne : l ≠ []) :
    ∃ o, has o = true ∧ 1 / 4 ≤ entryOf F l o := by
  have g : ∀ w, (w = 1 ∨ w = level ∨ w = F.rnd (level * level)) → 1 / 4 ≤ F.rnd w := by
    rintro w (h | h | h) <;> subst h
    · rw [rnd_one]; norm_num
    · rw [rnd_level]; unfold level; norm_num
    · have := rnd_near F (square_ok F)
      unfold Spec.Minus6dB at this
      rw [abs_le] at this
      linarith [this.1]
  cases h with
  | nil => exact absurd rfl hne
  | single o w ho hw => exact ⟨o, ho, by rw [entry_single, if_pos rfl]; exact g w hw⟩
  | pair o₁ o₂ w h1 h2 hn hw => exact ⟨o₁, h1, by rw [entry_pair F hn, if_pos (Or.inl rfl)]; exact g w (Or.inr hw)⟩

theorem surround_ne (F : RFloats) (has : Nat → Bool) (alt front : Nat) (h : has front = true ∨ has 2 = true) :
    foldSurround F has alt front ≠ [] := by
  unfold foldSurround
  by_cases h1 : has alt = true
  · rw [if_pos h1]; simp
  rw [if_neg h1]
  by_cases h2 : has front = true
  · rw [if_pos h2]; simp
  rw [if_neg h2, if_pos (by simpa [h2] using h)]; simp

theorem ground_named {c : Nat} (h : Spec.Named c) : groundEquivalent c ∈ [0, 1, 2, 4, 5, 6, 7, 8, 9, 10] := by
  unfold Spec.Named at h
  have : c < 35 := by omega
  interval_cases c <;> first | decide | omega

/-- **C97 (nothing gets lost).**  If the output has a center, or left and right, every named channel except the low frequency ones is
heard. -/
theorem C97_heard (F : RFloats) (inL outL : Nat) (i : Nat) (hi : Spec.Named i)
    (hout : outL.testBit 2 = true ∨ (outL.testBit 0 = true ∧ outL.testBit 1 = true)) :
    ∃ o, outL.testBit o = true ∧ 1 / 4 ≤ mixMatrix F inL outL false o i := by
  have hne : foldChannel F outL.testBit i ≠ [] := by
    unfold foldChannel
    by_cases h1 : outL.testBit i = true
    · rw [if_pos h1]; simp
    rw [if_neg h1]
    simp only
    by_cases h2 : outL.testBit (groundEquivalent i) = true
    · rw [if_pos h2]; simp
    rw [if_neg h2]
    have hg := ground_named hi
    generalize groundEquivalent i = g at *
    simp only [List.mem_cons, List.not_mem_nil, or_false] at hg
    generalize hA : outL.testBit 0 = A at *
    generalize hB : outL.testBit 1 = B at *
    generalize hC : outL.testBit 2 = C at *
    generalize outL.testBit 4 = D at *
    generalize outL.testBit 5 = E at *
    generalize outL.testBit 9 = G at *
    generalize outL.testBit 10 = H at *
    rcases hg with h | h | h | h | h | h | h | h | h | h <;> subst h <;> simp only
    · rw [hA] at h2; revert hout h2; cases A <;> cases B <;> cases C <;> simp
    · rw [hB] at h2; revert hout h2; cases A <;> cases B <;> cases C <;> simp
    · rw [hC] at h2; revert hout h2; cases A <;> cases B <;> cases C <;> simp
    · exact surround_ne F _ _ _ (by rw [hA, hC]; tauto)
    · exact surround_ne F _ _ _ (by rw [hB, hC]; tauto)
    · revert hout; cases A <;> cases B <;> cases C <;> simp
    · revert hout; cases A <;> cases B <;> cases C <;> simp
    · revert hout; cases A <;> cases B <;> cases C <;> cases D <;> cases E <;> cases G <;> cases H <;> simp
    · exact surround_ne F _ _ _ (by rw [hA, hC]; tauto)
    · exact surround_ne F _ _ _ (by rw [hB, hC]; tauto)
  obtain ⟨o, h1, h2⟩ := entry_ne F _ _ (fold_shape F outL.testBit i) hne
  exact ⟨o, h1, by rw [matrix_plain]; exact h2⟩

theorem ground_big {c : Nat} (h : 36 ≤ c) : groundEquivalent c = c := by
  obtain ⟨k, rfl⟩ : ∃ k, c = k + 36 := ⟨c - 36, by omega⟩
  rfl

theorem ground_lfe {c : Nat} (h1 : c ≠ 3) (h2 : c ≠ 35) : groundEquivalent c ≠ 3 ∧ groundEquivalent c ≠ 35 := by
  by_cases h : 36 ≤ c
  · rw [ground_big h]; exact ⟨h1, h2⟩
  · have : c < 36 := by omega
    interval_cases c <;> first | decide | omega

/-- **C97 (low frequencies).**  Low frequency channels only go to low frequency channels, with weight 1, and no other channel goes
there, unless it is one itself. -/
theorem C97_lfe (F : RFloats) (inL outL : Nat) (i o : Nat) (hm : mixMatrix F inL outL false o i ≠ 0) : 
    (Spec.Lfe i ↔ Spec.Lfe o) ∧ (Spec.Lfe i → mixMatrix F inL outL false o i = 1) := by
  rw [matrix_plain] at hm ⊢
  have single : ∀ a w, entryOf F [(a, w)] o ≠ 0 → a = o ∧ entryOf F [(a, w)] o = F.rnd w := by
    intro a w h
    rw [entry_single] at h ⊢
    split at h
    · rename_i e; exact ⟨e, by rw [if_pos e]⟩
    · exact absurd rfl h
  by_cases h1 : outL.testBit i = true
  · have hl : foldChannel F outL.testBit i = [(i, 1)] := by unfold foldChannel; rw [if_pos h1]
    rw [hl] at hm ⊢
    obtain ⟨e1, e2⟩ := single _ _ hm
    subst e1
    exact ⟨Iff.rfl, fun _ => by rw [e2, rnd_one]⟩
  by_cases hl : Spec.Lfe i
  · rcases hl with h | h <;> subst h
    · have hf : foldChannel F outL.testBit 3 = if outL.testBit 35 then [(35, 1)] else [] := by
        unfold foldChannel
        rw [if_neg h1]
        simp only [groundEquivalent]
        rw [if_neg h1]
      rw [hf] at hm ⊢
      split at hm
      · rename_i h35
        rw [if_pos h35]
        obtain ⟨e1, e2⟩ := single _ _ hm
        subst e1
        exact ⟨by simp [Spec.Lfe], fun _ => by rw [e2, rnd_one]⟩
      · exact absurd rfl hm
    · have hf : foldChannel F outL.testBit 35 = if outL.testBit 3 then [(3, 1)] else [] := by
        unfold foldChannel
        rw [if_neg h1]
        simp only [groundEquivalent]
        rw [if_neg h1]
      rw [hf] at hm ⊢
      split at hm
      · rename_i h35
        rw [if_pos h35]
        obtain ⟨e1, e2⟩ := single _ _ hm
        subst e1
        exact ⟨by simp [Spec.Lfe], fun _ => by rw [e2, rnd_one]⟩
      · exact absurd rfl hm
  · refine ⟨⟨fun h => absurd h hl, ?_⟩, fun h => absurd h hl⟩
    intro ho
    exfalso
    -- no destination is a low frequency channel
    have key : ∀ p ∈ foldChannel F outL.testBit i, p.1 ≠ 3 ∧ p.1 ≠ 35 := by
      have hg : groundEquivalent i ≠ 3 ∧ groundEquivalent i ≠ 35 := by
        unfold Spec.Lfe at hl
        exact ground_lfe (by omega) (by omega)
      unfold foldChannel
      rw [if_neg h1]
      simp only
      split
      · intro p hp; simp only [List.mem_singleton] at hp; subst hp; exact hg
      · split
        all_goals (try unfold foldSurround)
        all_goals (repeat' split)
        all_goals intro p hp
        all_goals simp only [List.mem_cons, List.not_mem_nil, or_false] at hp
        all_goals first
          | (rcases hp with hp | hp <;> subst hp <;> exact ⟨by simp only; omega, by simp only; omega⟩)
          | (subst hp; exact ⟨by simp only; omega, by simp only; omega⟩)
    apply hm
    have zero : ∀ (l : List (Nat × Rat)) (acc : Rat), (∀ p ∈ l, p.1 ≠ 3 ∧ p.1 ≠ 35) →
        l.foldl (fun acc p => if p.1 = o then F.rnd (acc + p.2) else acc) acc = acc := by
      intro l
      induction l with
      | nil => intro acc _; rfl
      | cons p l ih =>
        intro acc h
        have := h p (by simp)
        rw [List.foldl_cons, if_neg (by rcases ho with ho | ho <;> omega)]
        exact ih acc (fun q hq => h q (by simp [hq]))
    exact zero _ 0 key

end VS.Resample
