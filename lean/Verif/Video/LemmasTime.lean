import Verif.Video.Model

/-!
# Helper lemmas: timecodes
-/

namespace VS.Video

/-- A rounding: monotone, and representable numbers stay. -/
structure Rounding (rnd : Rat → Rat) : Prop where
  mono : ∀ a b, a ≤ b → rnd a ≤ rnd b
  zero : rnd 0 = 0
  idem : ∀ a, rnd (rnd a) = rnd a

theorem Rounding.id : Rounding (fun x => x) := ⟨fun _ _ h => h, rfl, fun _ => rfl⟩

theorem Rounding.nonneg {rnd : Rat → Rat} (r : Rounding rnd) {a : Rat} (h : 0 ≤ a) : 0 ≤ rnd a := by
  have := r.mono 0 a h
  rwa [r.zero] at this

def fold (rnd : Rat → Rat) (c : Counts) (s : Rat) : Rat := c.foldl (fun sum e => rnd (sum + term rnd e)) s

/-- Positive durations and counts. -/
def Pos (c : Counts) : Prop := ∀ e ∈ c, 0 < e.1.1 ∧ 0 < e.1.2 ∧ 0 ≤ e.2

theorem Pos.bump {key : Int × Int} (h1 : 0 < key.1) (h2 : 0 < key.2) : ∀ {c : Counts}, Pos c → Pos (bump key c)
  | [], _ => by
    intro e he
    simp only [Video.bump, List.mem_cons, List.not_mem_nil, or_false] at he
    subst he
    exact ⟨h1, h2, by show (0 : Int) ≤ 1; omega⟩
  | (k, n) :: t, h => by
    have hk := h (k, n) (by simp)
    have ht : Pos t := fun e he => h e (by simp [he])
    unfold Video.bump
    split
    · intro e he
      rcases List.mem_cons.mp he with rfl | he
      · exact ⟨hk.1, hk.2.1, by have := hk.2.2; show (0 : Int) ≤ n + 1; simp at this; omega⟩
      · exact ht e he
    · split
      · intro e he
        rcases List.mem_cons.mp he with rfl | he
        · exact ⟨h1, h2, by show (0 : Int) ≤ 1; omega⟩
        · exact h e he
      · intro e he
        rcases List.mem_cons.mp he with rfl | he
        · exact hk
        · exact Pos.bump h1 h2 ht e he

theorem ratio_nonneg {rnd : Rat → Rat} (r : Rounding rnd) {a b : Int} (h1 : 0 < a) (h2 : 0 < b) :
    0 ≤ rnd (rnd a / rnd b) := by
  apply r.nonneg
  have ha : (0 : Rat) ≤ rnd a := r.nonneg (Rat.intCast_nonneg.mpr (by omega))
  have hb : (0 : Rat) ≤ rnd b := r.nonneg (Rat.intCast_nonneg.mpr (by omega))
  rw [Rat.div_def]
  apply Rat.mul_nonneg ha
  by_cases h0 : rnd b = 0
  · rw [h0, Rat.inv_zero]
    exact Rat.le_refl
  · exact Rat.le_of_lt (Rat.inv_pos.mpr (by grind))

theorem term_mono {rnd : Rat → Rat} (r : Rounding rnd) {k : Int × Int} {a b : Int} (h1 : 0 < k.1) (h2 : 0 < k.2) (h : a ≤ b) :
    term rnd (k, a) ≤ term rnd (k, b) := by
  apply r.mono
  exact Rat.mul_le_mul_of_nonneg_right (r.mono _ _ (Rat.intCast_le_intCast.mpr h)) (ratio_nonneg r h1 h2)

theorem term_nonneg {rnd : Rat → Rat} (r : Rounding rnd) {k : Int × Int} {a : Int} (h1 : 0 < k.1) (h2 : 0 < k.2) (h : 0 ≤ a) :
    0 ≤ term rnd (k, a) :=
  r.nonneg (Rat.mul_nonneg (r.nonneg (Rat.intCast_nonneg.mpr h)) (ratio_nonneg r h1 h2))

theorem fold_mono {rnd : Rat → Rat} (r : Rounding rnd) : ∀ (c : Counts) {s t : Rat}, s ≤ t → fold rnd c s ≤ fold rnd c t
  | [], _, _, h => h
  | _ :: c, _, _, h => fold_mono r c (r.mono _ _ (Rat.add_le_add_right.mpr h))

theorem fold_bump {rnd : Rat → Rat} (r : Rounding rnd) {key : Int × Int} (h1 : 0 < key.1) (h2 : 0 < key.2) :
    ∀ (c : Counts) {s : Rat}, Pos c → rnd s = s → fold rnd c s ≤ fold rnd (bump key c) s
  | [], s, _, hs => by
    show s ≤ rnd (s + term rnd (key, 1))
    have h := r.mono s (s + term rnd (key, 1)) (by have := term_nonneg r h1 h2 (a := 1) (by omega); grind)
    rwa [hs] at h
  | (k, n) :: t, s, hp, hs => by
    have hk := hp (k, n) (by simp)
    unfold bump
    split
    · exact fold_mono r t (r.mono _ _ (Rat.add_le_add_left.mpr (term_mono r hk.1 hk.2.1 (by show n ≤ n + 1; omega))))
    · split
      · have h := r.mono s (s + term rnd (key, 1)) (by have := term_nonneg r h1 h2 (a := 1) (by omega); grind)
        rw [hs] at h
        exact fold_mono r ((k, n) :: t) h
      · exact fold_bump r h1 h2 t (fun e he => hp e (by simp [he])) (r.idem _)

theorem fold_cons (rnd : Rat → Rat) (e : (Int × Int) × Int) (c : Counts) (s : Rat) :
    fold rnd (e :: c) s = fold rnd c (rnd (s + term rnd e)) := rfl

theorem term_id (k : Int × Int) (n : Int) : term (fun x => x) (k, n) = (n : Rat) * ((k.1 : Rat) / k.2) := rfl

/-- Without rounding. -/
theorem fold_id (c : Counts) : ∀ s, fold (fun x => x) c s = s + fold (fun x => x) c 0 := by
  induction c with
  | nil => intro s; show s = s + 0; grind
  | cons e c ih =>
    intro s
    rw [fold_cons, fold_cons]
    rw [ih (s + term _ e), ih (0 + term _ e)]
    grind

theorem fold_bump_id (key : Int × Int) : ∀ (c : Counts), fold (fun x => x) (bump key c) 0 = fold (fun x => x) c 0 + (key.1 : Rat) / key.2
  | [] => by
    show (0 : Rat) + ((1 : Int) : Rat) * ((key.1 : Rat) / key.2) = 0 + (key.1 : Rat) / key.2
    rw [Rat.intCast_one, Rat.one_mul]
  | (k, n) :: t => by
    unfold bump
    split
    · next h =>
      rw [fold_cons, fold_cons, fold_id t (0 + term _ (k, n + 1)), fold_id t (0 + term _ (k, n)), term_id, term_id, ← h,
        Rat.intCast_add, Rat.intCast_one]
      grind
    · split
      · rw [fold_cons, fold_id, term_id, Rat.intCast_one]
        grind
      · rw [fold_cons, fold_cons, fold_id, fold_bump_id key t, fold_id t (0 + term _ (k, n))]
        grind

end VS.Video
