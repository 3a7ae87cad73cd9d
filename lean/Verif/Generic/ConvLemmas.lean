import Verif.Generic.ConvSpec
import Verif.Generic.Lemmas3

/-! # Lemmas about the kernels of Convolution -/

namespace VS.Generic
open VS VS.Format VS.Map VS.Map.Spec VS.Pix VS.Pix.Spec VS.Point VS.Point.Spec VS.Pixel VS.Pixel.Spec VS.Generic.Spec

variable (F : Floats)

/-! ## Places -/

theorem mirrored_lt {n : Nat} (h : 0 < n) (i : Int) : mirrored n i < n := by
  unfold mirrored
  omega

theorem mirrorIndex_eq {n : Nat} (h : 0 < n) (i : Int) : mirrorIndex i n = mirrored n i := by
  unfold mirrorIndex mirrored
  dsimp only
  repeat' split
  all_goals omega

theorem mirrored_near {n x : Nat} (hx : x < n) {i : Int} (h1 : (x : Int) - 1 ≤ i) (h2 : i ≤ x + 1) : mirrored n i = nearest n i := by
  unfold mirrored nearest
  repeat' split
  all_goals omega

theorem squareCol_eq {n w x k : Nat} (hn : n % 2 = 1) (hx : x < w) (hk : k < n) : squareCol n w x k = mirrored w ((x : Int) + k - (n / 2 : Nat)) := by
  unfold squareCol
  split
  · exact mirrorIndex_eq (by omega) _
  · unfold mirrored
    rw [if_neg (by omega), if_neg (by omega)]
    omega

theorem hIndex_eq {s w j k : Nat} (hs : s < w) (hj : j < w) (hk : k ≤ 2 * s) : hIndex s w j k = mirrored w ((j : Int) + k - s) := by
  unfold hIndex mirrored
  repeat' split
  all_goals omega

theorem vIndex_eq {s h i k : Nat} (hs : s < h) (hi : i < h) (hk : k ≤ 2 * s) : vIndex s h i k = mirrored h ((i : Int) + k - s) := by
  unfold vIndex mirrored
  repeat' split
  all_goals omega

/-! ## Sums -/

theorem accumulate_ok {bits V : Nat} : ∀ (l : List (Int × Nat)) (a : Int), (∀ p ∈ l, p.1.natAbs ≤ 1023 ∧ p.2 ≤ V) →
    a.natAbs + l.length * (1023 * V) < 2 ^ (bits - 1) → accumulate bits l a = .ok (a + (l.map fun p => p.1 * (p.2 : Int)).sum) := by
  intro l
  induction l with
  | nil =>
    intro a _ _
    simp [accumulate]
  | cons p t ih =>
    obtain ⟨c, v⟩ := p
    intro a h hb
    have hp := h (c, v) (by simp)
    have hm : (c * (v : Int)).natAbs ≤ 1023 * V := by
      rw [Int.natAbs_mul]
      exact Nat.mul_le_mul hp.1 (by simpa using hp.2)
    have hl : (t.length + 1) * (1023 * V) = t.length * (1023 * V) + 1023 * V := Nat.succ_mul _ _
    rw [List.length_cons, hl] at hb
    have e2 : ((2 ^ (bits - 1) : Nat) : Int) = 2 ^ (bits - 1) := by simp
    unfold accumulate
    rw [if_neg]
    · rw [ih _ (fun p hp => h p (by simp [hp])) (by omega)]
      simp only [List.map_cons, List.sum_cons]
      congr 1
      omega
    · rw [← e2]
      omega

/-- The products of a matrix and the samples at the taps. -/
def products (coeffs : List Int) (l : List Nat) : Int := ((coeffs.zip l).map fun p => p.1 * (p.2 : Int)).sum

theorem convSum_ok {bits V : Nat} {R : Nat → Nat → Res Nat} {v : Nat → Nat → Nat} {w h : Nat}
    (hR : ∀ cx cy, cx < w → cy < h → R cx cy = .ok (v cx cy)) (hv : ∀ cx cy, v cx cy ≤ V) {coeffs : List Int} {taps : List (Nat × Nat)}
    (hc : ∀ c ∈ coeffs, c.natAbs ≤ 1023) (ht : ∀ c ∈ taps, c.1 < w ∧ c.2 < h) (hb : coeffs.length * (1023 * V) < 2 ^ (bits - 1)) :
    convSum bits R coeffs taps = .ok (products coeffs (taps.map fun c => v c.1 c.2)) := by
  unfold convSum
  rw [readAll_ok hR _ ht, Res.bind_ok]
  have := accumulate_ok (bits := bits) (V := V) (coeffs.zip (taps.map fun c => v c.1 c.2)) 0 (by
    rintro ⟨c, u⟩ hp
    refine ⟨hc c (List.of_mem_zip hp).1, ?_⟩
    obtain ⟨q, _, rfl⟩ := List.mem_map.1 (List.of_mem_zip hp).2
    exact hv _ _) (by
    have : (coeffs.zip (taps.map fun c => v c.1 c.2)).length ≤ coeffs.length := by rw [List.length_zip]; omega
    have := Nat.mul_le_mul_right (1023 * V) this
    simp only [Int.natAbs_zero]
    omega)
  rw [this]
  unfold products
  simp

theorem products_map {α : Type} (f : α → Int) (g : α → Nat) (l : List α) :
    products (l.map f) (l.map g) = (l.map fun a => f a * (g a : Int)).sum := by
  unfold products
  rw [List.zip_map', List.map_map]
  rfl

theorem eq_map_getD (m : List Int) : m = (List.range m.length).map fun k => m.getD k 0 := by
  refine List.ext_getElem (by simp) ?_
  intro i h1 h2
  simp [List.getD_eq_getElem?_getD, h1]

theorem products_range (m : List Int) (g : Nat → Nat) :
    products m ((List.range m.length).map g) = ((List.range m.length).map fun k => m.getD k 0 * (g k : Int)).sum := by
  rw [← products_map (fun k => m.getD k 0) g, ← eq_map_getD]

theorem sum_map_add {α : Type} (f g : α → Int) (l : List α) : (l.map fun a => f a + g a).sum = (l.map f).sum + (l.map g).sum := by
  induction l with
  | nil => rfl
  | cons a t ih => simp only [List.map_cons, List.sum_cons, ih]; omega

theorem sum_map_zero {α : Type} (l : List α) : (l.map fun _ => (0 : Int)).sum = 0 := by
  induction l with
  | nil => rfl
  | cons a t ih => simp only [List.map_cons, List.sum_cons, ih]; omega

theorem sum_comm {α β : Type} (f : α → β → Int) (l : List α) (l' : List β) :
    (l.map fun a => (l'.map fun b => f a b).sum).sum = (l'.map fun b => (l.map fun a => f a b).sum).sum := by
  induction l with
  | nil => simp only [List.map_nil, List.sum_nil, sum_map_zero]
  | cons a t ih => simp only [List.map_cons, List.sum_cons, ih, sum_map_add]

theorem products_append {a b : List Int} {c d : List Nat} (h : a.length = c.length) :
    products (a ++ b) (c ++ d) = products a c + products b d := by
  unfold products
  rw [List.zip_append h, List.map_append, List.sum_append]

theorem products_flat {α β : Type} (f : α → β → Int) (g : α → β → Nat) (l : List α) (l' : List β) :
    products (l.flatMap fun a => l'.map (f a)) (l.flatMap fun a => l'.map (g a)) =
      (l.map fun a => (l'.map fun b => f a b * (g a b : Int)).sum).sum := by
  induction l with
  | nil => rfl
  | cons a t ih =>
    rw [List.flatMap_cons, List.flatMap_cons, products_append (by simp), products_map, ih, List.map_cons, List.sum_cons]

end VS.Generic
