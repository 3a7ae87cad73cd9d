import Verif.Pix.Mem

/-! # Facts about memory and loops -/

namespace VS.Pix
open VS

/-- Rule for loops. -/
theorem forFrom_spec {σ : Type} (f : Nat → σ → Res σ) (step : Nat) (I : Nat → σ → Prop) (i n : Nat) (b : σ)
    (h0 : I 0 b) (hs : ∀ k b, k < n → I k b → ∃ b', f (i + k * step) b = .ok b' ∧ I (k + 1) b') :
    ∃ b', forFrom f step i n b = .ok b' ∧ I n b' := by
  induction n generalizing i b I with
  | zero => exact ⟨b, rfl, h0⟩
  | succ n ih =>
    obtain ⟨b1, h1, h2⟩ := hs 0 b (Nat.succ_pos _) h0
    have := ih (fun k => I (k + 1)) (i + step) b1 h2 (fun k b hk hI => by
      obtain ⟨b', e, h⟩ := hs (k + 1) b (by omega) hI
      refine ⟨b', ?_, h⟩
      rw [← e]; congr 1; rw [Nat.add_mul]; omega)
    obtain ⟨b', e, h⟩ := this
    refine ⟨b', ?_, h⟩
    rw [forFrom]
    simp only [Nat.zero_mul, Nat.add_zero] at h1
    rw [h1]
    exact e

/-- Rule for loops that count up from 0. -/
theorem forN_spec {σ : Type} (f : Nat → σ → Res σ) (I : Nat → σ → Prop) (n : Nat) (b : σ)
    (h0 : I 0 b) (hs : ∀ k b, k < n → I k b → ∃ b', f k b = .ok b' ∧ I (k + 1) b') :
    ∃ b', forN f n b = .ok b' ∧ I n b' :=
  forFrom_spec f 1 I 0 n b h0 (fun k b hk hI => by
    have := hs k b hk hI
    simpa using this)

/-- `memcpy` inside of both blocks. -/
theorem memcpy_ok (dst : Buf) (d : Nat) (src : Buf) (s n : Nat) (h1 : d + n ≤ dst.size) (h2 : s + n ≤ src.size) :
    ∃ b, memcpy dst d src s n = .ok b ∧ b.size = dst.size ∧ (∀ k, k < n → b.byte (d + k) = src.byte (s + k)) ∧
      ∀ i, ¬ (d ≤ i ∧ i < d + n) → b.byte i = dst.byte i := by
  refine ⟨_, if_pos (by omega), rfl, ?_, ?_⟩
  · intro k hk
    show (if _ then _ else _) = _
    rw [if_pos (by omega)]
    congr 1
    omega
  · intro i hi
    show (if _ then _ else _) = _
    rw [if_neg (by omega)]

/-- `memset` inside of the block. -/
theorem memset_ok (dst : Buf) (d bps v n : Nat) (h1 : d + n * bps ≤ dst.size) :
    ∃ b, memset dst d bps v n = .ok b ∧ b.size = dst.size ∧ (∀ k, k < n * bps → b.byte (d + k) = leByte v (k % bps)) ∧
      ∀ i, ¬ (d ≤ i ∧ i < d + n * bps) → b.byte i = dst.byte i := by
  refine ⟨_, if_pos (by omega), rfl, ?_, ?_⟩
  · intro k hk
    show (if _ then _ else _) = _
    rw [if_pos (by omega)]
    congr 2
    omega
  · intro i hi
    show (if _ then _ else _) = _
    rw [if_neg (by omega)]

/-- Copying rows: the rows of the destination start at `a y`, those of the source at `c y`. -/
theorem rows_ok (dst : Buf) (dO dS : Int) (src : Buf) (sO sS : Int) (row h : Nat) (a c : Nat → Nat)
    (ha : ∀ y, y < h → dO + y * dS = a y) (hc : ∀ y, y < h → sO + y * sS = c y)
    (hd : ∀ y, y < h → a y + row ≤ dst.size) (hs : ∀ y, y < h → c y + row ≤ src.size)
    (hx : ∀ y z, y < h → z < h → y ≠ z → a y + row ≤ a z ∨ a z + row ≤ a y) :
    ∃ b, forN (fun y b => memcpy b (dO + y * dS) src (sO + y * sS) row) h dst = .ok b ∧ b.size = dst.size ∧
      (∀ y k, y < h → k < row → b.byte (a y + k) = src.byte (c y + k)) ∧
      ∀ i, (∀ y, y < h → ¬ (a y ≤ i ∧ i < a y + row)) → b.byte i = dst.byte i := by
  have := forN_spec (fun y b => memcpy b (dO + y * dS) src (sO + y * sS) row)
    (fun m b => b.size = dst.size ∧
      (∀ y k, y < m → k < row → b.byte (a y + k) = src.byte (c y + k)) ∧
      ∀ i, (∀ y, y < m → ¬ (a y ≤ i ∧ i < a y + row)) → b.byte i = dst.byte i) h dst
    ⟨rfl, fun y k hy => absurd hy (Nat.not_lt_zero _), fun i _ => rfl⟩
    (by
      rintro m b hm ⟨e1, e2, e3⟩
      obtain ⟨b', f0, f1, f2, f3⟩ := memcpy_ok b (a m) src (c m) row (e1 ▸ hd m hm) (hs m hm)
      refine ⟨b', ?_, f1.trans e1, ?_, ?_⟩
      · show memcpy b (dO + m * dS) src (sO + m * sS) row = _
        rw [ha m hm, hc m hm]; exact f0
      · intro y k hy hk
        rcases Nat.lt_succ_iff_lt_or_eq.1 hy with hy | rfl
        · rw [f3 _ (by have := hx y m (by omega) hm (by omega); omega)]
          exact e2 y k hy hk
        · exact f2 k hk
      · intro i hi
        rw [f3 i (hi m (Nat.lt_succ_self _))]
        exact e3 i (fun y hy => hi y (by omega)))
  exact this

/-- `bitblt`. -/
theorem bitblt_ok (dst : Buf) (dO dS : Int) (src : Buf) (sO sS : Int) (row h : Nat) (a c : Nat → Nat)
    (ha : ∀ y, y < h → dO + y * dS = a y) (hc : ∀ y, y < h → sO + y * sS = c y)
    (hd : ∀ y, y < h → a y + row ≤ dst.size) (hs : ∀ y, y < h → c y + row ≤ src.size)
    (hx : ∀ y z, y < h → z < h → y ≠ z → a y + row ≤ a z ∨ a z + row ≤ a y) :
    ∃ b, bitblt dst dO dS src sO sS row h = .ok b ∧ b.size = dst.size ∧
      (∀ y k, y < h → k < row → b.byte (a y + k) = src.byte (c y + k)) ∧
      ∀ i, (∀ y, y < h → ¬ (a y ≤ i ∧ i < a y + row)) → b.byte i = dst.byte i := by
  unfold bitblt
  split
  · rename_i h0
    split
    · rename_i hst
      obtain ⟨e1, e2⟩ := hst
      have a0 := ha 0 (by omega)
      have c0 := hc 0 (by omega)
      simp only [Int.natCast_zero, Int.zero_mul, Int.add_zero] at a0 c0
      have ea : ∀ y, y < h → a y = a 0 + row * y := by
        intro y hy
        have := ha y hy
        rw [a0, ← e1, e2, ← Int.natCast_mul, Nat.mul_comm y row] at this
        omega
      have ec : ∀ y, y < h → c y = c 0 + row * y := by
        intro y hy
        have := hc y hy
        rw [c0, e2, ← Int.natCast_mul, Nat.mul_comm y row] at this
        omega
      have el : row * h = row * (h - 1) + row := by
        rw [← Nat.mul_succ]; congr 1; omega
      have hl := hd (h - 1) (by omega)
      rw [ea _ (by omega)] at hl
      have hl' := hs (h - 1) (by omega)
      rw [ec _ (by omega)] at hl'
      obtain ⟨b, f0, f1, f2, f3⟩ := memcpy_ok dst (a 0) src (c 0) (row * h) (by omega) (by omega)
      refine ⟨b, ?_, f1, ?_, ?_⟩
      · rw [a0, c0]; exact f0
      · intro y k hy hk
        have : row * y + k < row * h := by
          have : row * y + row ≤ row * h := by rw [← Nat.mul_succ]; exact Nat.mul_le_mul_left _ hy
          omega
        rw [ea y hy, ec y hy, Nat.add_assoc, Nat.add_assoc]
        exact f2 _ this
      · intro i hi
        refine f3 i ?_
        rintro ⟨h1, h2⟩
        have hr : 0 < row := by
          rcases Nat.eq_zero_or_pos row with h | h
          · subst h; omega
          · exact h
        have hq : (i - a 0) / row < h := by
          rw [Nat.div_lt_iff_lt_mul hr, Nat.mul_comm]; omega
        refine hi ((i - a 0) / row) hq ?_
        rw [ea _ hq]
        have := Nat.div_add_mod (i - a 0) row
        have := Nat.mod_lt (i - a 0) hr
        omega
    · exact rows_ok dst dO dS src sO sS row h a c ha hc hd hs hx
  · rename_i h0
    have : h = 0 := by omega
    subst this
    exact ⟨dst, rfl, rfl, fun y k hy => absurd hy (Nat.not_lt_zero _), fun i _ => rfl⟩

end VS.Pix
