import Verif.Stats.Spec
import Verif.Levels.Props
import Verif.Map.LemmasRefine

/-! # Lemmas about PlaneStats -/

namespace VS.Stats
open VS VS.Format VS.Map VS.Map.Spec VS.Pix VS.Pix.Spec VS.Point VS.Point.Spec VS.Pixel VS.Pixel.Spec VS.Stats.Spec
open VS.Levels (rabs_pos)
open VS.Generic (rabs_nonneg rabs_add rabs_zero)

/-! ## Loops -/

theorem forN_fold {σ : Type} {f : Nat → σ → Res σ} {g : σ → Nat → σ} {n : Nat} (h : ∀ i s, i < n → f i s = .ok (g s i)) (s : σ) :
    forN f n s = .ok ((List.range n).foldl g s) := by
  obtain ⟨b, e, hb⟩ := forN_spec f (fun k b => b = (List.range k).foldl g s) n s rfl (by
    intro k b hk hb
    refine ⟨_, h k b hk, ?_⟩
    rw [hb, List.range_succ, List.foldl_append]
    rfl)
  rw [e, hb]

theorem scan_ok {σ : Type} {cell : Nat → Nat → Res (Nat × Nat)} {add : σ → Nat → Nat → σ} {f : Frm} {p : Nat} {c : Nat → Nat → Nat × Nat}
    (h : ∀ x y, x < f.w p → y < f.h p → cell x y = .ok (c x y)) (s : σ) :
    scan cell add (f.w p) (f.h p) s = .ok ((each f p c).foldl (fun s c => add s c.1 c.2) s) := by
  unfold scan each
  rw [List.foldl_flatMap]
  rw [forN_fold (g := fun s y => ((List.range (f.w p)).map fun x => c x y).foldl (fun s c => add s c.1 c.2) s)]
  intro y s hy
  rw [List.foldl_map]
  refine forN_fold (g := fun s x => add s (c x y).1 (c x y).2) ?_ s
  intro x s hx
  rw [h x y hx hy, Res.bind_ok]

theorem each_length {α : Type} (f : Frm) (p : Nat) (v : Nat → Nat → α) : (each f p v).length = f.h p * f.w p := by
  unfold each
  induction f.h p with
  | zero => simp
  | succ n ih =>
    rw [List.range_succ, List.flatMap_append, List.length_append, ih]
    simp [Nat.add_mul]

theorem mem_each {α : Type} {f : Frm} {p : Nat} {v : Nat → Nat → α} {a : α} : a ∈ each f p v ↔ ∃ x y, x < f.w p ∧ y < f.h p ∧ v x y = a := by
  unfold each
  simp only [List.mem_flatMap, List.mem_map, List.mem_range]
  constructor
  · rintro ⟨y, hy, x, hx, e⟩
    exact ⟨x, y, hx, hy, e⟩
  · rintro ⟨x, y, hx, hy, e⟩
    exact ⟨y, hy, x, hx, e⟩

theorem map_each {α β : Type} (f : Frm) (p : Nat) (v : Nat → Nat → α) (g : α → β) : (each f p v).map g = each f p fun x y => g (v x y) := by
  unfold each
  rw [List.map_flatMap]
  congr 1
  funext y
  rw [List.map_map]
  rfl

/-! ## Integers -/

/-- The difference without sign. -/
def gap (c : Nat × Nat) : Nat := max c.1 c.2 - min c.1 c.2

theorem fold_ints : ∀ (l : List (Nat × Nat)) (s : Ints), s.acc < 2 ^ 64 → s.diff < 2 ^ 64 →
    (l.foldl (fun s c => s.add c.1 c.2) s).acc = (s.acc + (l.map (·.1)).sum) % 2 ^ 64 ∧
    (l.foldl (fun s c => s.add c.1 c.2) s).diff = (s.diff + (l.map gap).sum) % 2 ^ 64 := by
  intro l
  induction l with
  | nil =>
    intro s h1 h2
    exact ⟨by simp [Nat.mod_eq_of_lt h1], by simp [Nat.mod_eq_of_lt h2]⟩
  | cons c t ih =>
    intro s h1 h2
    obtain ⟨i1, i2⟩ := ih (s.add c.1 c.2) (Nat.mod_lt _ (by decide)) (Nat.mod_lt _ (by decide))
    rw [List.foldl_cons, i1, i2, List.map_cons, List.map_cons, List.sum_cons, List.sum_cons]
    unfold Ints.add gap
    dsimp only
    constructor
    · omega
    · split <;> omega

theorem fold_min : ∀ (l : List (Nat × Nat)) (s : Ints),
    ((l.foldl (fun s c => s.add c.1 c.2) s).min = s.min ∨ (l.foldl (fun s c => s.add c.1 c.2) s).min ∈ l.map (·.1)) ∧
    (l.foldl (fun s c => s.add c.1 c.2) s).min ≤ s.min ∧ ∀ v ∈ l.map (·.1), (l.foldl (fun s c => s.add c.1 c.2) s).min ≤ v := by
  intro l
  induction l with
  | nil => intro s; exact ⟨Or.inl rfl, Nat.le_refl _, fun v hv => by cases hv⟩
  | cons c t ih =>
    intro s
    obtain ⟨i1, i2, i3⟩ := ih (s.add c.1 c.2)
    rw [List.foldl_cons, List.map_cons]
    have e : (s.add c.1 c.2).min = if s.min < c.1 then s.min else c.1 := rfl
    rw [e] at i1 i2
    generalize (t.foldl (fun s c => s.add c.1 c.2) (s.add c.1 c.2)).min = m at i1 i2 i3
    refine ⟨?_, by split at i2 <;> omega, ?_⟩
    · rcases i1 with i1 | i1
      · split at i1
        · exact Or.inl i1
        · exact Or.inr (by rw [i1]; exact List.mem_cons_self)
      · exact Or.inr (List.mem_cons_of_mem _ i1)
    · intro v hv
      rcases List.mem_cons.1 hv with rfl | hv
      · split at i2 <;> omega
      · exact i3 v hv

theorem fold_max : ∀ (l : List (Nat × Nat)) (s : Ints),
    ((l.foldl (fun s c => s.add c.1 c.2) s).max = s.max ∨ (l.foldl (fun s c => s.add c.1 c.2) s).max ∈ l.map (·.1)) ∧
    s.max ≤ (l.foldl (fun s c => s.add c.1 c.2) s).max ∧ ∀ v ∈ l.map (·.1), v ≤ (l.foldl (fun s c => s.add c.1 c.2) s).max := by
  intro l
  induction l with
  | nil => intro s; exact ⟨Or.inl rfl, Nat.le_refl _, fun v hv => by cases hv⟩
  | cons c t ih =>
    intro s
    obtain ⟨i1, i2, i3⟩ := ih (s.add c.1 c.2)
    rw [List.foldl_cons, List.map_cons]
    have e : (s.add c.1 c.2).max = if s.max > c.1 then s.max else c.1 := rfl
    rw [e] at i1 i2
    generalize (t.foldl (fun s c => s.add c.1 c.2) (s.add c.1 c.2)).max = m at i1 i2 i3
    refine ⟨?_, by split at i2 <;> omega, ?_⟩
    · rcases i1 with i1 | i1
      · split at i1
        · exact Or.inl i1
        · exact Or.inr (by rw [i1]; exact List.mem_cons_self)
      · exact Or.inr (List.mem_cons_of_mem _ i1)
    · intro v hv
      rcases List.mem_cons.1 hv with rfl | hv
      · split at i2 <;> omega
      · exact i3 v hv

theorem sum_le {l : List Nat} {t : Nat} (h : ∀ v ∈ l, v ≤ t) : l.sum ≤ l.length * t := by
  induction l with
  | nil => simp
  | cons a l ih =>
    have := ih fun v hv => h v (List.mem_cons_of_mem _ hv)
    have := h a List.mem_cons_self
    rw [List.sum_cons, List.length_cons, Nat.add_mul]
    omega

theorem sum_eq {l : List Nat} {t : Nat} (h : ∀ v ∈ l, v = t) : l.sum = l.length * t := by
  induction l with
  | nil => simp
  | cons a l ih =>
    have := ih fun v hv => h v (List.mem_cons_of_mem _ hv)
    have := h a List.mem_cons_self
    rw [List.sum_cons, List.length_cons, Nat.add_mul]
    omega

theorem sum_zero {l : List Nat} (h : l.sum = 0) : ∀ v ∈ l, v = 0 := by
  induction l with
  | nil => exact fun v hv => by cases hv
  | cons a l ih =>
    rw [List.sum_cons] at h
    intro v hv
    rcases List.mem_cons.1 hv with rfl | hv
    · omega
    · exact ih (by omega) v hv

/-! ## Averages -/

theorem quot_near {A a N n u q : Rat} (hn : 0 < n) (hN : 0 < N) (ha : 0 ≤ a) (h1 : rabs (A - a) ≤ a * (9 / 2 ^ 56)) (h2 : rabs (N - n) ≤ n * (9 / 2 ^ 56))
    (hu : u * N = A) (hq : q * n = a) (hq0 : 0 ≤ q) : rabs (u - q) ≤ q * (19 / 2 ^ 56) := by
  have h1 := rabs_le.1 h1
  have h2 := rabs_le.1 h2
  have hqn := Rat.mul_nonneg hq0 (Rat.le_of_lt hn)
  have k1 := Rat.mul_nonneg hq0 (show 0 ≤ N - n + n * (9 / 2 ^ 56) by grind)
  have k2 := Rat.mul_nonneg hq0 (show 0 ≤ n * (9 / 2 ^ 56) - (N - n) by grind)
  rw [rabs_le]
  constructor
  · refine Rat.not_lt.1 fun hc => ?_
    have := Rat.mul_pos (show 0 < -(q * (19 / 2 ^ 56)) - (u - q) by grind) hN
    grind
  · refine Rat.not_lt.1 fun hc => ?_
    have := Rat.mul_pos (show 0 < (u - q) - q * (19 / 2 ^ 56) by grind) hN
    grind

theorem quot_le {A N : Rat} (h : A ≤ N) (hN : 1 ≤ N) : A / N ≤ 1 := by
  refine Rat.not_lt.1 fun hc => ?_
  have h1 := Rat.mul_pos (show 0 < A / N - 1 by grind) (show 0 < N by grind)
  have h2 : A / N * N = A := by grind
  generalize A / N = q at *
  grind

theorem near_trans {r u q : Rat} (hq : 0 ≤ q) (h1 : -(q * (19 / 2 ^ 56)) ≤ u - q ∧ u - q ≤ q * (19 / 2 ^ 56))
    (h2 : -(u * (9 / 2 ^ 56)) ≤ r - u ∧ r - u ≤ u * (9 / 2 ^ 56)) : rabs (r - q) ≤ q / 2 ^ 51 := by
  rw [rabs_le]
  constructor <;> grind

variable (F : SFloats)

theorem rnd_near {q : Rat} (h : 1 / 2 ^ 64 ≤ q) : rabs (F.rnd q - q) ≤ q * (9 / 2 ^ 56) := by
  have h1 := F.rnd_close q
  have tiny : (1 : Rat) / 2 ^ 1075 ≤ 1 / 2 ^ 120 := by decide +kernel
  rw [rabs_pos (show 0 ≤ q by grind)] at h1
  generalize (1 : Rat) / 2 ^ 1075 = d at h1 tiny
  grind

theorem rnd_one_le {n : Nat} (h : 1 ≤ n) : 1 ≤ F.rnd ((n : Int) : Rat) := by
  have := F.rnd_mono ((1 : Int) : Rat) ((n : Int) : Rat) (Rat.intCast_le_intCast.2 (by omega))
  rw [F.rnd_int 1 (by decide)] at this
  exact this

theorem mean_ok {l : List Nat} {t : Nat} (hl : 0 < l.length) (ht : 0 < t) (hn : l.length * t < 2 ^ 63) :
    Mean l t (quotient F l.sum (l.length * t)) := by
  have hn1 : 1 ≤ l.length * t := Nat.mul_pos hl ht
  have N1 := rnd_one_le F hn1
  have z0 : F.rnd ((0 : Int) : Rat) = 0 := F.rnd_int 0 (by decide)
  have o1 : F.rnd ((1 : Int) : Rat) = 1 := F.rnd_int 1 (by decide)
  have e0 : ((0 : Int) : Rat) = 0 := rfl
  have e1 : ((1 : Int) : Rat) = 1 := rfl
  rw [e0] at z0
  rw [e1] at o1
  have ncast : ∀ n : Nat, ((n : Int) : Rat) = (n : Rat) := fun n => Rat.intCast_natCast n
  have hle : (∀ v ∈ l, v ≤ t) → quotient F l.sum (l.length * t) ≤ 1 := by
    intro h
    have hs := F.rnd_mono ((l.sum : Int) : Rat) ((l.length * t : Nat) : Int) (Rat.intCast_le_intCast.2 (by have := sum_le h; omega))
    unfold quotient
    have : F.rnd ((l.sum : Int) : Rat) / F.rnd (((l.length * t : Nat) : Int) : Rat) ≤ 1 := by
      generalize F.rnd ((l.sum : Int) : Rat) = A at hs
      generalize F.rnd (((l.length * t : Nat) : Int) : Rat) = N at hs N1
      exact quot_le hs N1
    have := F.rnd_mono _ _ this
    rw [o1] at this
    exact this
  have heq : (∀ v ∈ l, v = t) → quotient F l.sum (l.length * t) = 1 := by
    intro h
    unfold quotient
    rw [sum_eq h]
    have : F.rnd (((l.length * t : Nat) : Int) : Rat) / F.rnd (((l.length * t : Nat) : Int) : Rat) = 1 := by grind
    rw [this, o1]
  by_cases hs0 : l.sum = 0
  · have : quotient F l.sum (l.length * t) = 0 := by
      unfold quotient
      rw [hs0]
      have : F.rnd (((0 : Nat) : Int) : Rat) / F.rnd (((l.length * t : Nat) : Int) : Rat) = 0 := by
        rw [show F.rnd (((0 : Nat) : Int) : Rat) = 0 from z0]
        grind
      rw [this, z0]
    refine ⟨by rw [this]; exact Rat.le_refl, ?_, ⟨fun _ => sum_zero hs0, fun _ => this⟩, hle, heq⟩
    rw [this, hs0]
    have : ((0 : Nat) : Rat) / ((l.length * t : Nat) : Rat) = 0 := by
      have : ((0 : Nat) : Rat) = 0 := rfl
      rw [this]
      grind
    rw [this]
    have e : (0 : Rat) - 0 = 0 := by grind
    rw [e, rabs_zero]
    grind
  have A1 := rnd_one_le F (show 1 ≤ l.sum by omega)
  have nb : ((l.length * t : Nat) : Rat) ≤ 2 ^ 63 := by
    have : ((l.length * t : Nat) : Rat) ≤ ((2 ^ 63 : Nat) : Rat) := by exact_mod_cast Nat.le_of_lt hn
    have e : ((2 ^ 63 : Nat) : Rat) = 2 ^ 63 := by push_cast; rfl
    grind
  have n1 : (1 : Rat) ≤ ((l.length * t : Nat) : Rat) := by exact_mod_cast hn1
  have a1 : (1 : Rat) ≤ ((l.sum : Nat) : Rat) := by exact_mod_cast (show 1 ≤ l.sum by omega)
  have small : (1 : Rat) / 2 ^ 64 ≤ 1 := by decide +kernel
  have cA := rnd_near F (q := ((l.sum : Nat) : Rat)) (by grind)
  have cN := rnd_near F (q := ((l.length * t : Nat) : Rat)) (by grind)
  unfold Mean
  unfold quotient at *
  rw [ncast, ncast] at *
  generalize ((l.sum : Nat) : Rat) = a at *
  generalize ((l.length * t : Nat) : Rat) = n at *
  generalize F.rnd a = A at *
  generalize F.rnd n = N at *
  have hN : N ≤ 2 ^ 64 := by
    have := rabs_le.1 cN
    grind
  have hu : A / N * N = A := by grind
  have hq : a / n * n = a := by grind
  have hu0 : 1 / 2 ^ 64 ≤ A / N := by
    refine Rat.not_lt.1 fun hc => ?_
    have := Rat.mul_pos (show 0 < 1 / 2 ^ 64 - A / N by grind) (show 0 < N by grind)
    grind
  have hq0 : 0 ≤ a / n := by
    refine Rat.not_lt.1 fun hc => ?_
    have := Rat.mul_pos (show 0 < -(a / n) by grind) (show 0 < n by grind)
    grind
  have near := rabs_le.1 (quot_near (by grind) (by grind) (by grind) cA cN hu hq hq0)
  have fin := rabs_le.1 (rnd_near F hu0)
  generalize A / N = u at *
  generalize a / n = q at *
  generalize F.rnd u = r at *
  have hr : 0 < r := by grind
  refine ⟨Rat.le_of_lt hr, ?_, ⟨fun h => by grind, fun h => ?_⟩, hle, heq⟩
  · exact near_trans hq0 near fin
  · exact absurd (by rw [sum_eq h]; omega) hs0

/-! ## Names -/

theorem key_append (s t : String) (c : Char) (l : List Char) (e : t.toList = c :: l) (hc : c.isAlpha = true) (hl : (c :: l).all Char.isAlphanum = true) :
    KeyOk (s ++ t) = true ↔ PrefixOk s := by
  have hs : s = "" ↔ s.toList = [] := by
    rw [← String.toList_inj]
    exact Iff.rfl
  unfold KeyOk PrefixOk KeyOk
  rw [String.toList_append, e, hs]
  cases s.toList with
  | nil =>
    have : l.all (fun c => c.isAlphanum || c == '_') = true := by
      rw [List.all_eq_true] at hl ⊢
      intro d hd
      rw [hl d (List.mem_cons_of_mem _ hd)]
      rfl
    dsimp only [List.nil_append]
    rw [hc, this]
    exact ⟨fun _ => Or.inl rfl, fun _ => rfl⟩
  | cons a r =>
    have : (c :: l).all (fun c => c.isAlphanum || c == '_') = true := by
      rw [List.all_eq_true] at hl ⊢
      intro d hd
      rw [hl d hd]
      rfl
    dsimp only [List.cons_append]
    rw [List.all_append, this, Bool.and_true]
    exact ⟨fun h => Or.inr h, fun h => h.resolve_left (by simp)⟩

theorem key_names (s : String) : (KeyOk (s ++ "Average") = true ↔ PrefixOk s) ∧ (KeyOk (s ++ "Min") = true ↔ PrefixOk s) ∧
    (KeyOk (s ++ "Max") = true ↔ PrefixOk s) ∧ (KeyOk (s ++ "Diff") = true ↔ PrefixOk s) :=
  ⟨key_append s _ _ _ rfl (by decide) (by decide), key_append s _ _ _ rfl (by decide) (by decide),
    key_append s _ _ _ rfl (by decide) (by decide), key_append s _ _ _ rfl (by decide) (by decide)⟩

theorem append_ne (s : String) {t u : String} (h : t ≠ u) : s ++ t ≠ s ++ u := by
  intro e
  rw [← String.toList_inj, String.toList_append, String.toList_append] at e
  exact h (String.toList_inj.1 (List.append_cancel_left e))

end VS.Stats
