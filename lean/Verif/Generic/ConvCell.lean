import Verif.Generic.ConvLemmas

/-! # One sample of Convolution, and its arguments -/

namespace VS.Generic
open VS VS.Format VS.Map VS.Map.Spec VS.Pix VS.Pix.Spec VS.Point VS.Point.Spec VS.Pixel VS.Pixel.Spec VS.Generic.Spec

variable (F : Floats)

/-! ## Sums of the modes -/

section
variable {V : Nat} {R : Nat → Nat → Res Nat} {v : Nat → Nat → Nat} {w h : Nat}

theorem row_ok (hR : ∀ cx cy, cx < w → cy < h → R cx cy = .ok (v cx cy)) (hv : ∀ cx cy, v cx cy ≤ V) (hV : V ≤ 65535) {m : List Int}
    (hm : ∀ c ∈ m, c.natAbs ≤ 1023) (hn : m.length ≤ 25) (ho : m.length % 2 = 1) (hw : m.length / 2 < w) {x y : Nat} (hx : x < w) (hy : y < h) :
    convSum 32 R m (hTaps m.length w x y) = .ok (rowSum m v w x y) := by
  have hb : m.length * (1023 * V) < 2 ^ (32 - 1) := by
    have : m.length * (1023 * V) ≤ 25 * (1023 * 65535) := Nat.mul_le_mul hn (Nat.mul_le_mul_left _ hV)
    omega
  have e : hTaps m.length w x y = (List.range m.length).map fun (k : Nat) => (mirrored w ((x : Int) + (k : Int) - (m.length / 2 : Nat)), y) := by
    unfold hTaps
    refine List.map_congr_left ?_
    intro k hk
    rw [hIndex_eq hw hx (by have := List.mem_range.1 hk; omega)]
  rw [e, convSum_ok hR hv hm ?_ hb, List.map_map]
  · congr 1
    exact products_range m (fun k => v (mirrored w ((x : Int) + (k : Int) - (m.length / 2 : Nat))) y)
  · intro c hc
    obtain ⟨k, _, rfl⟩ := List.mem_map.1 hc
    exact ⟨mirrored_lt (by omega) _, hy⟩

theorem col_ok (hR : ∀ cx cy, cx < w → cy < h → R cx cy = .ok (v cx cy)) (hv : ∀ cx cy, v cx cy ≤ V) (hV : V ≤ 65535) {m : List Int}
    (hm : ∀ c ∈ m, c.natAbs ≤ 1023) (hn : m.length ≤ 25) (ho : m.length % 2 = 1) (hh : m.length / 2 < h) {x y : Nat} (hx : x < w) (hy : y < h) :
    convSum 32 R m (vTaps m.length h x y) = .ok (colSum m v h x y) := by
  have hb : m.length * (1023 * V) < 2 ^ (32 - 1) := by
    have : m.length * (1023 * V) ≤ 25 * (1023 * 65535) := Nat.mul_le_mul hn (Nat.mul_le_mul_left _ hV)
    omega
  have e : vTaps m.length h x y = (List.range m.length).map fun (k : Nat) => (x, mirrored h ((y : Int) + (k : Int) - (m.length / 2 : Nat))) := by
    unfold vTaps
    refine List.map_congr_left ?_
    intro k hk
    rw [vIndex_eq hh hy (by have := List.mem_range.1 hk; omega)]
  rw [e, convSum_ok hR hv hm ?_ hb, List.map_map]
  · congr 1
    exact products_range m (fun k => v x (mirrored h ((y : Int) + (k : Int) - (m.length / 2 : Nat))))
  · intro c hc
    obtain ⟨k, _, rfl⟩ := List.mem_map.1 hc
    exact ⟨hx, mirrored_lt (by omega) _⟩

theorem getD_bound {m : List Int} (hm : ∀ c ∈ m, c.natAbs ≤ 1023) (i : Nat) : (m.getD i 0).natAbs ≤ 1023 := by
  rw [List.getD_eq_getElem?_getD]
  by_cases hi : i < m.length
  · rw [List.getElem?_eq_getElem hi]
    exact hm _ (List.getElem_mem hi)
  · rw [List.getElem?_eq_none (by omega)]
    decide

theorem box_ok (hR : ∀ cx cy, cx < w → cy < h → R cx cy = .ok (v cx cy)) (hv : ∀ cx cy, v cx cy ≤ V) {m : List Int}
    (hm : ∀ c ∈ m, c.natAbs ≤ 1023) {n bits : Nat} (ho : n % 2 = 1) (hb : n * n * (1023 * V) < 2 ^ (bits - 1)) {x y : Nat}
    (hx : x < w) (hy : y < h) :
    convSum bits R (squareCoeffs n m) (squareTaps n w h x y) = .ok (boxSum n m v w h x y) := by
  have e : squareTaps n w h x y = (List.range n).flatMap fun (k : Nat) => (List.range n).map fun (r : Nat) =>
      (mirrored w ((x : Int) + (k : Int) - (n / 2 : Nat)), mirrored h ((y : Int) + (r : Int) - (n / 2 : Nat))) := by
    unfold squareTaps
    rw [List.flatMap_def, List.flatMap_def]
    congr 1
    refine List.map_congr_left ?_
    intro k hk
    refine List.map_congr_left ?_
    intro r _
    rw [squareCol_eq ho hx (List.mem_range.1 hk), mirrorIndex_eq (by omega)]
  have hl : (squareCoeffs n m).length = n * n := by
    unfold squareCoeffs
    rw [List.length_flatMap]
    simp only [List.length_map, List.length_range]
    rw [List.map_const', List.sum_replicate_nat, List.length_range]
  rw [e, convSum_ok hR hv ?_ ?_ (by rw [hl]; exact hb), List.map_flatMap]
  · congr 1
    unfold squareCoeffs
    simp only [List.map_map]
    have := products_flat (fun (k r : Nat) => m.getD (r * n + k) 0)
      (fun (k r : Nat) => v (mirrored w ((x : Int) + (k : Int) - (n / 2 : Nat))) (mirrored h ((y : Int) + (r : Int) - (n / 2 : Nat))))
      (List.range n) (List.range n)
    refine Eq.trans this ?_
    rw [sum_comm]
    rfl
  · intro c hc
    unfold squareCoeffs at hc
    obtain ⟨k, _, hc⟩ := List.mem_flatMap.1 hc
    obtain ⟨r, _, rfl⟩ := List.mem_map.1 hc
    exact getD_bound hm _
  · intro c hc
    obtain ⟨k, _, hc⟩ := List.mem_flatMap.1 hc
    obtain ⟨r, _, rfl⟩ := List.mem_map.1 hc
    exact ⟨mirrored_lt (by omega) _, mirrored_lt (by omega) _⟩

theorem three_sum (hR : ∀ cx cy, cx < w → cy < h → R cx cy = .ok (v cx cy)) (hv : ∀ cx cy, v cx cy ≤ V) (hV : V ≤ 65535) {m : List Int}
    (hm : ∀ c ∈ m, c.natAbs ≤ 1023) (hn : m.length = 9) (hw : 2 ≤ w) (hh : 2 ≤ h) {x y : Nat} (hx : x < w) (hy : y < h) :
    convSum 32 R m (taps3 w h x y) = .ok (boxSum 3 m v w h x y) := by
  have hb : m.length * (1023 * V) < 2 ^ (32 - 1) := by
    have : m.length * (1023 * V) ≤ 25 * (1023 * 65535) := Nat.mul_le_mul (by omega) (Nat.mul_le_mul_left _ hV)
    omega
  obtain ⟨r0, r1, r2⟩ := row3_eq hh hy
  obtain ⟨c0, c1, c2⟩ := col3_eq hw hx
  rw [convSum_ok hR hv hm ?_ hb]
  · congr 1
    match m, hn with
    | [m0, m1, m2, m3, m4, m5, m6, m7, m8], _ =>
      unfold taps3 boxSum
      rw [r0, r1, r2, c0, c1, c2]
      have e1 : mirrored w ((x : Int) + ((0 : Nat) : Int) - ((3 / 2 : Nat) : Int)) = nearest w (x + -1) := by
        rw [mirrored_near hx (by omega) (by omega)]; congr 1
      have e2 : mirrored w ((x : Int) + ((1 : Nat) : Int) - ((3 / 2 : Nat) : Int)) = nearest w (x + 0) := by
        rw [mirrored_near hx (by omega) (by omega)]; congr 1; omega
      have e3 : mirrored w ((x : Int) + ((2 : Nat) : Int) - ((3 / 2 : Nat) : Int)) = nearest w (x + 1) := by
        rw [mirrored_near hx (by omega) (by omega)]; congr 1; omega
      have f1 : mirrored h ((y : Int) + ((0 : Nat) : Int) - ((3 / 2 : Nat) : Int)) = nearest h (y + -1) := by
        rw [mirrored_near hy (by omega) (by omega)]; congr 1
      have f2 : mirrored h ((y : Int) + ((1 : Nat) : Int) - ((3 / 2 : Nat) : Int)) = nearest h (y + 0) := by
        rw [mirrored_near hy (by omega) (by omega)]; congr 1; omega
      have f3 : mirrored h ((y : Int) + ((2 : Nat) : Int) - ((3 / 2 : Nat) : Int)) = nearest h (y + 1) := by
        rw [mirrored_near hy (by omega) (by omega)]; congr 1; omega
      have er : List.range 3 = [0, 1, 2] := rfl
      rw [er]
      simp only [List.map_cons, List.map_nil, List.sum_cons, List.sum_nil, e1, e2, e3, f1, f2, f3]
      unfold products
      simp only [List.zip_cons_cons, List.zip_nil_right, List.map_cons, List.map_nil, List.sum_cons, List.sum_nil, List.getD_cons_zero,
        List.getD_cons_succ, Nat.zero_mul, Nat.one_mul, Nat.reduceMul, Nat.reduceAdd]
      omega
  · unfold taps3
    rw [r0, r1, r2, c0, c1, c2]
    have := fun i => nearest_lt (n := w) (by omega) i
    have := fun i => nearest_lt (n := h) (by omega) i
    simp only [List.mem_cons, List.not_mem_nil, or_false]
    rintro c (rfl | rfl | rfl | rfl | rfl | rfl | rfl | rfl | rfl) <;> exact ⟨by simp [*], by simp [*]⟩

theorem square_ok {k : Kind} (hR : ∀ cx cy, cx < w → cy < h → R cx cy = .ok (v cx cy)) (hk : k = .byte ∨ k = .word)
    (hv : ∀ cx cy, v cx cy ≤ typeMax k) {m : List Int}
    (hm : ∀ c ∈ m, c.natAbs ≤ 1023) (hn : m.length = 9 ∨ m.length = 25 ∨ m.length = 49 ∨ m.length = 81 ∨ m.length = 121) (hw : 2 ≤ w)
    (hh : 2 ≤ h) {x y : Nat} (hx : x < w) (hy : y < h) :
    squareSum k m R w h x y = .ok (boxSum (Spec.sizeOf m.length) m v w h x y) := by
  have hV : typeMax k ≤ 65535 := by rcases hk with rfl | rfl <;> decide
  unfold squareSum Spec.sizeOf
  by_cases h9 : m.length = 9
  · rw [if_pos h9, if_pos h9]
    exact three_sum hR hv hV hm h9 hw hh hx hy
  · rw [if_neg h9, if_neg h9]
    have key : ∀ n bits, n % 2 = 1 → n * n * (1023 * typeMax k) < 2 ^ (bits - 1) →
        convSum bits R (squareCoeffs n m) (squareTaps n w h x y) = .ok (boxSum n m v w h x y) :=
      fun n bits ho hb => box_ok hR hv hm ho hb hx hy
    rcases hn with e | e | e | e | e
    · exact absurd e h9
    all_goals
      rw [e]
      rcases hk with rfl | rfl <;> exact key _ _ (by decide) (by decide)

/-- The value of a sample. -/
def convVal (mode : ConvMode) (m : List Int) (out : Int → Nat) (v : Nat → Nat → Nat) (w h x y : Nat) : Nat :=
  match mode with
  | .separable => out (rowSum m (fun cx cy => out (colSum m v h cx cy)) w x y)
  | mode => out (sumFor mode m v w h x y)

theorem convCell_ok {arg : Option String} {mode : ConvMode} {k : Kind} (hR : ∀ cx cy, cx < w → cy < h → R cx cy = .ok (v cx cy))
    (hk : k = .byte ∨ k = .word) (hv : ∀ cx cy, v cx cy ≤ typeMax k) {m : List Int} (hm : ∀ c ∈ m, c.natAbs ≤ 1023)
    (hmode : ModeIs arg m.length mode) (hf : VS.Generic.Spec.Fits mode m.length w h) {out : Int → Nat} (ho : ∀ a, out a ≤ typeMax k) {x y : Nat}
    (hx : x < w) (hy : y < h) :
    convCell mode k m out R w h x y = .ok (convVal mode m out v w h x y) := by
  have hV : typeMax k ≤ 65535 := by rcases hk with rfl | rfl <;> decide
  obtain ⟨f1, f2, f3, f4⟩ := hf
  cases mode with
  | square =>
    have hn : m.length = 9 ∨ m.length = 25 ∨ m.length = 49 ∨ m.length = 81 ∨ m.length = 121 := by
      rcases hmode with ⟨_, h, _⟩ | ⟨_, _, _, ⟨_, h⟩ | ⟨_, h⟩ | ⟨_, h⟩⟩
      · exact h
      all_goals cases h
    unfold convCell
    dsimp only
    rw [square_ok hR hk hv hm hn (by omega) (by omega) hx hy, Res.bind_ok]
    rfl
  | horizontal =>
    have hn : m.length ≤ 25 ∧ m.length % 2 = 1 := by
      rcases hmode with ⟨_, _, h⟩ | ⟨_, h, h', _⟩
      · cases h
      · exact ⟨h, h'⟩
    unfold convCell
    dsimp only
    rw [row_ok hR hv hV hm hn.1 hn.2 (by have := f3 (Or.inl rfl); omega) hx hy, Res.bind_ok]
    rfl
  | vertical =>
    have hn : m.length ≤ 25 ∧ m.length % 2 = 1 := by
      rcases hmode with ⟨_, _, h⟩ | ⟨_, h, h', _⟩
      · cases h
      · exact ⟨h, h'⟩
    unfold convCell
    dsimp only
    rw [col_ok hR hv hV hm hn.1 hn.2 (by have := f4 (Or.inl rfl); omega) hx hy, Res.bind_ok]
    rfl
  | separable =>
    have hn : m.length ≤ 25 ∧ m.length % 2 = 1 := by
      rcases hmode with ⟨_, _, h⟩ | ⟨_, h, h', _⟩
      · cases h
      · exact ⟨h, h'⟩
    unfold convCell
    dsimp only
    rw [row_ok (v := fun cx cy => out (colSum m v h cx cy)) (h := h) (V := typeMax k) ?_ (fun _ _ => ho _) hV hm hn.1 hn.2
      (by have := f3 (Or.inr rfl); omega) hx hy, Res.bind_ok]
    · rfl
    · intro cx cy hcx hcy
      rw [col_ok hR hv hV hm hn.1 hn.2 (by have := f4 (Or.inr rfl); omega) hcx hcy, Res.bind_ok]

end

/-! ## The end of the computation -/

theorem rabs_mul (a b : Rat) : rabs (a * b) = rabs a * rabs b := by
  have e : ∀ a b : Rat, 0 ≤ a → 0 ≤ b → rabs (a * b) = rabs a * rabs b := by
    intro a b ha hb
    have := Rat.mul_nonneg ha hb
    unfold rabs
    rw [if_neg (by grind), if_neg (by grind), if_neg (by grind)]
  have n : ∀ a : Rat, rabs (-a) = rabs a := by
    intro a
    unfold rabs
    grind
  by_cases ha : 0 ≤ a <;> by_cases hb : 0 ≤ b
  · exact e a b ha hb
  · have := e a (-b) ha (by grind)
    rw [← n b, ← this, ← n]
    congr 1
    grind
  · have := e (-a) b (by grind) hb
    rw [← n a, ← this, ← n]
    congr 1
    grind
  · have := e (-a) (-b) (by grind) (by grind)
    rw [← n a, ← n b, ← this]
    congr 1
    grind

theorem rabs_nonneg (a : Rat) : 0 ≤ rabs a := by
  unfold rabs
  split <;> grind

theorem rabs_add (a b : Rat) : rabs (a + b) ≤ rabs a + rabs b := by
  unfold rabs
  repeat' split
  all_goals grind

end VS.Generic
