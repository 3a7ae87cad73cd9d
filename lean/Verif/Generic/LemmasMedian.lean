import Verif.Generic.Lemmas3

/-!
# The median of nine numbers

The network of comparisons is checked by the 0-1 principle: for every threshold the numbers become booleans, and all 512 cases are
looked at.
-/

namespace VS.Generic
open VS VS.Generic.Spec

/-- An exchange of booleans. -/
def exchangeB (l : List Bool) (ij : Nat × Nat) : List Bool :=
  let x := l.getD ij.1 false
  let y := l.getD ij.2 false
  (l.set ij.1 (x && y)).set ij.2 (x || y)

theorem length_exchange (l : List Nat) (ij : Nat × Nat) : (exchange l ij).length = l.length := by
  unfold exchange
  simp

theorem getD_map (t : Nat) {l : List Nat} {i : Nat} (h : i < l.length) :
    (l.map fun v => decide (t ≤ v)).getD i false = decide (t ≤ l.getD i 0) := by
  simp [List.getD_eq_getElem?_getD, h]

theorem map_exchange (t : Nat) {l : List Nat} {ij : Nat × Nat} (h1 : ij.1 < l.length) (h2 : ij.2 < l.length) :
    (exchange l ij).map (fun v => decide (t ≤ v)) = exchangeB (l.map fun v => decide (t ≤ v)) ij := by
  unfold exchange exchangeB
  have g : ∀ i, i < l.length → (l.map fun v => decide (t ≤ v)).getD i false = decide (t ≤ l.getD i 0) := by
    intro i hi
    exact getD_map t hi
  dsimp only
  rw [List.map_set, List.map_set, g _ h1, g _ h2]
  congr 1
  · congr 1
    rw [← Bool.decide_and]
    exact decide_eq_decide.2 (by omega)
  · rw [← Bool.decide_or]
    exact decide_eq_decide.2 (by omega)

theorem map_network (t : Nat) : ∀ (net : List (Nat × Nat)) (l : List Nat), (∀ ij ∈ net, ij.1 < l.length ∧ ij.2 < l.length) →
    (net.foldl exchange l).map (fun v => decide (t ≤ v)) = net.foldl exchangeB (l.map fun v => decide (t ≤ v)) ∧
    (net.foldl exchange l).length = l.length := by
  intro net
  induction net with
  | nil => exact fun l _ => ⟨rfl, rfl⟩
  | cons ij net ih =>
    intro l h
    have h0 := h ij (by simp)
    rw [List.foldl_cons, List.foldl_cons, ← map_exchange t h0.1 h0.2]
    have := ih (exchange l ij) (by
      intro ij' hm
      rw [length_exchange]
      exact h ij' (by simp [hm]))
    rw [length_exchange] at this
    exact this

theorem network_bool : ∀ b0 b1 b2 b3 b4 b5 b6 b7 b8 : Bool,
    (network.foldl exchangeB [b0, b1, b2, b3, b4, b5, b6, b7, b8]).getD 4 false =
      decide (5 ≤ [b0, b1, b2, b3, b4, b5, b6, b7, b8].countP id) := by
  decide +kernel

theorem network_count (B : List Bool) (h : B.length = 9) : (network.foldl exchangeB B).getD 4 false = decide (5 ≤ B.countP id) := by
  match B, h with
  | [b0, b1, b2, b3, b4, b5, b6, b7, b8], _ => exact network_bool b0 b1 b2 b3 b4 b5 b6 b7 b8

/-- At least `t` is the median exactly if five of the numbers are. -/
theorem median_ge {l : List Nat} (hl : l.length = 9) (t : Nat) : t ≤ medianOp l ↔ 5 ≤ l.countP fun v => decide (t ≤ v) := by
  obtain ⟨h, hlen⟩ := map_network t network l (by rw [hl]; decide)
  have hlen' : 4 < (network.foldl exchange l).length := by omega
  have e1 : ((network.foldl exchange l).map fun v => decide (t ≤ v)).getD 4 false = decide (t ≤ medianOp l) := by
    exact getD_map t hlen'
  have e2 : (network.foldl exchangeB (l.map fun v => decide (t ≤ v))).getD 4 false =
      decide (5 ≤ (l.map fun v => decide (t ≤ v)).countP id) := network_count _ (by simpa using hl)
  have : decide (t ≤ medianOp l) = decide (5 ≤ l.countP fun v => decide (t ≤ v)) := by
    rw [← e1, h, e2, List.countP_map]
    rfl
  exact decide_eq_decide.1 this

theorem countP_succ (l : List Nat) (m : Nat) :
    l.countP (fun v => decide (m ≤ v)) = l.countP (fun v => decide (m + 1 ≤ v)) + l.countP (fun v => decide (v = m)) := by
  induction l with
  | nil => rfl
  | cons a t ih =>
    rw [List.countP_cons, List.countP_cons, List.countP_cons, ih]
    simp only [decide_eq_true_eq]
    split <;> split <;> split <;> omega

theorem countP_le (l : List Nat) (m : Nat) :
    l.length = l.countP (fun v => decide (m + 1 ≤ v)) + l.countP (fun v => decide (v ≤ m)) := by
  induction l with
  | nil => rfl
  | cons a t ih =>
    rw [List.countP_cons, List.countP_cons, List.length_cons, ih]
    simp only [decide_eq_true_eq]
    split <;> split <;> omega

theorem median_is {l : List Nat} (hl : l.length = 9) : IsMedian l (medianOp l) := by
  have h1 := (median_ge hl (medianOp l)).1 (Nat.le_refl _)
  have h2 : ¬ 5 ≤ l.countP fun v => decide (medianOp l + 1 ≤ v) := by
    rw [← median_ge hl]
    omega
  have h3 := countP_succ l (medianOp l)
  have h4 := countP_le l (medianOp l)
  refine ⟨?_, by omega, h1⟩
  obtain ⟨a, ha, e⟩ := List.countP_pos_iff.1 (show 0 < l.countP (fun v => decide (v = medianOp l)) by omega)
  rw [decide_eq_true_eq] at e
  rwa [e] at ha

theorem rows9_perm (v : Nat → Nat → Nat) (w h x y : Nat) : (rows9 v w h x y).Perm (nine v w h x y) := by
  unfold rows9 nine offsets
  simp only [List.map_cons, List.map_nil]
  exact List.perm_middle (l₁ := [nbr v w h x y (-1, -1), nbr v w h x y (0, -1), nbr v w h x y (1, -1), nbr v w h x y (-1, 0)])

theorem median_nine (v : Nat → Nat → Nat) (w h x y : Nat) : IsMedian (nine v w h x y) (medianOp (rows9 v w h x y)) := by
  have p := rows9_perm v w h x y
  obtain ⟨h1, h2, h3⟩ := median_is (l := rows9 v w h x y) rfl
  generalize medianOp (rows9 v w h x y) = m at *
  refine ⟨p.mem_iff.1 h1, ?_, ?_⟩
  · rwa [← p.countP_eq]
  · rwa [← p.countP_eq]

/-- There is only one median. -/
theorem median_unique {l : List Nat} (hl : l.length = 9) {m m' : Nat} (h : IsMedian l m) (h' : IsMedian l m') : m = m' := by
  have key : ∀ {m}, IsMedian l m → m = medianOp l := by
    intro m h
    have a := (median_ge hl m).2 h.2.2
    have b : ¬ m + 1 ≤ medianOp l := by
      rw [median_ge hl]
      have := countP_le l m
      have := h.2.1
      omega
    omega
  rw [key h, key h']

end VS.Generic
