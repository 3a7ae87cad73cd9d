import Verif.Reorder.Model
import Verif.Reorder.Spec
import Verif.Filter.Lemmas

/-! Helper lemmas for the reordering filters. -/

namespace VS.Reorder

variable {α : Type}

/-- Saturation does not move a value across a bound that is itself a 32 bit value. -/
theorem sat_lt {x b : Int} (h0 : 0 ≤ b) (hb : b ≤ INT_MAX) : int64ToIntS x < b ↔ x < b := by
  unfold int64ToIntS INT_MAX INT_MIN at *; split <;> (try split) <;> omega

theorem sat_eq_of_lt {x b : Int} (h0 : 0 ≤ x) (hx : x < b) (hb : b ≤ INT_MAX + 1) : int64ToIntS x = x := by
  unfold int64ToIntS INT_MAX INT_MIN at *; split <;> (try split) <;> omega

theorem argS_eq (a : Option Int) : argS a = int64ToIntS (a.getD 0) := by
  cases a <;> simp [argS, int64ToIntS, INT_MAX, INT_MIN]

theorem retFrame_some {F : Type} (f : F) : retFrame (some f) = .ok f := rfl

/-! ### Duplicate/delete index maps -/

/-- `Spec.duplicate` starting at frame number `i`. -/
def dupFrom {F : Type} (dups : List Int) (i : Nat) (fs : List F) : List F :=
  (fs.zipIdx i).flatMap fun p => List.replicate (1 + dups.count (p.2 : Int)) p.1

theorem dupFrom_nil {F : Type} (dups : List Int) (i : Nat) : dupFrom dups i ([] : List F) = [] := rfl

theorem dupFrom_cons {F : Type} (dups : List Int) (i : Nat) (f : F) (fs : List F) :
    dupFrom dups i (f :: fs) = List.replicate (1 + dups.count (i : Int)) f ++ dupFrom dups (i + 1) fs := by
  simp [dupFrom, List.zipIdx_cons]

theorem dupFrom_congr {F : Type} (d1 d2 : List Int) (i : Nat) (fs : List F)
    (h : ∀ j : Nat, i ≤ j → d1.count (j : Int) = d2.count (j : Int)) : dupFrom d1 i fs = dupFrom d2 i fs := by
  induction fs generalizing i with
  | nil => rfl
  | cons f fs ih =>
    rw [dupFrom_cons, dupFrom_cons, h i (Nat.le_refl _), ih (i + 1) (fun j hj => h j (by omega))]

theorem dupFrom_step {F : Type} (d : Nat) (ds : List Int) (hs : ∀ x ∈ ds, (d : Int) ≤ x) (fs : List F) (i : Nat)
    (hi : i ≤ d) (hlt : d < i + fs.length) (n : Nat) :
    (dupFrom ((d : Int) :: ds) i fs)[n]? = if n + i ≤ d then fs[n]? else (dupFrom ds i fs)[n - 1]? := by
  induction fs generalizing i n with
  | nil => simp at hlt; omega
  | cons f fs ih =>
    rw [dupFrom_cons, dupFrom_cons]
    by_cases hid : i = d
    · subst hid
      have e : dupFrom ((i : Int) :: ds) (i + 1) fs = dupFrom ds (i + 1) fs := by
        apply dupFrom_congr
        intro j hj
        rw [List.count_cons_of_ne]; omega
      rw [e, List.count_cons_self, Nat.add_comm (ds.count _) 1, ← Nat.add_assoc, Nat.add_comm 1 1, Nat.add_assoc,
        Nat.add_comm 1 (1 + _), List.replicate_succ]
      cases n with
      | zero => simp
      | succ n => rw [if_neg (by omega)]; simp
    · have hlt' : i < d := by omega
      have c1 : ((d : Int) :: ds).count (i : Int) = 0 := by
        rw [List.count_eq_zero]
        intro hm
        rcases List.mem_cons.1 hm with h | h
        · omega
        · have := hs _ h; omega
      have c2 : ds.count (i : Int) = 0 := by
        rw [List.count_eq_zero]
        intro h
        have := hs _ h; omega
      rw [c1, c2]
      cases n with
      | zero => simp [hi]
      | succ n =>
        have := ih (i + 1) (by omega) (by simp at hlt; omega) n
        simp only [Nat.add_zero, List.replicate_one, List.singleton_append, List.getElem?_cons_succ,
          Nat.add_sub_cancel]
        rw [this]
        by_cases hc : n + (i + 1) ≤ d
        · rw [if_pos hc, if_pos (by omega)]
        · rw [if_neg hc, if_neg (by omega)]
          cases n with
          | zero => omega
          | succ n => simp

theorem dupFrom_length {F : Type} (d : Nat) (ds : List Int) (fs : List F) (i : Nat)
    (hi : i ≤ d) (hlt : d < i + fs.length) :
    (dupFrom ((d : Int) :: ds) i fs).length = (dupFrom ds i fs).length + 1 := by
  induction fs generalizing i with
  | nil => simp at hlt; omega
  | cons f fs ih =>
    rw [dupFrom_cons, dupFrom_cons]
    by_cases hid : i = d
    · subst hid
      have e : dupFrom ((i : Int) :: ds) (i + 1) fs = dupFrom ds (i + 1) fs := by
        apply dupFrom_congr
        intro j hj
        rw [List.count_cons_of_ne]; omega
      rw [e]
      simp; omega
    · rw [List.count_cons_of_ne (by omega)]
      have := ih (i + 1) (by omega) (by simp at hlt; omega)
      simp [this]; omega

theorem dupFrom_none {F : Type} (i : Nat) (fs : List F) : dupFrom [] i fs = fs := by
  induction fs generalizing i with
  | nil => rfl
  | cons f fs ih => rw [dupFrom_cons, ih]; simp

theorem dup_length {F : Type} (dups : List Int) (fs : List F) (hb : ∀ x ∈ dups, 0 ≤ x ∧ x < fs.length) :
    (Spec.duplicate fs dups).length = fs.length + dups.length := by
  show (dupFrom dups 0 fs).length = _
  induction dups with
  | nil => simp [dupFrom_none]
  | cons d ds ih =>
    have hd := hb d (by simp)
    obtain ⟨d', rfl⟩ : ∃ k : Nat, d = (k : Int) := ⟨d.toNat, by omega⟩
    rw [dupFrom_length _ _ _ _ (by omega) (by omega), ih (fun x hx => hb x (by simp [hx]))]
    simp; omega

theorem dupSrc_spec {F : Type} (dups : List Int) (fs : List F) (hs : dups.Pairwise (· ≤ ·))
    (hb : ∀ x ∈ dups, 0 ≤ x ∧ x < fs.length) (n : Nat) (hn : n < fs.length + dups.length) :
    ∃ k : Nat, dupSrc dups n = k ∧ k < fs.length ∧ (Spec.duplicate fs dups)[n]? = fs[k]? := by
  show ∃ k : Nat, _ ∧ _ ∧ (dupFrom dups 0 fs)[n]? = _
  induction dups generalizing n with
  | nil => exact ⟨n, rfl, by simpa using hn, by simp [dupFrom_none]⟩
  | cons d ds ih =>
    rw [List.pairwise_cons] at hs
    have hd := hb d (by simp)
    obtain ⟨d', rfl⟩ : ∃ k : Nat, d = (k : Int) := ⟨d.toNat, by omega⟩
    rw [dupFrom_step d' ds hs.1 fs 0 (by omega) (by omega)]
    by_cases h : n ≤ d'
    · refine ⟨n, ?_, by omega, ?_⟩
      · rw [dupSrc, if_neg (by omega)]
      · rw [if_pos (by omega)]
    · obtain ⟨k, h1, h2, h3⟩ := ih hs.2 (fun x hx => hb x (by simp [hx])) (n - 1) (by simp at hn; omega)
      refine ⟨k, ?_, h2, ?_⟩
      · rw [dupSrc, if_pos (by omega)]
        rw [← h1]; congr 1; omega
      · rw [if_neg (by omega), h3]

/-- `Spec.delete` starting at frame number `i`. -/
def delFrom {F : Type} (del : List Int) (i : Nat) (fs : List F) : List F :=
  ((fs.zipIdx i).filter fun p => decide ((p.2 : Int) ∉ del)).map (·.1)

theorem delFrom_cons {F : Type} (del : List Int) (i : Nat) (f : F) (fs : List F) :
    delFrom del i (f :: fs) = if (i : Int) ∈ del then delFrom del (i + 1) fs else f :: delFrom del (i + 1) fs := by
  by_cases h : (i : Int) ∈ del <;> simp [delFrom, List.zipIdx_cons, h]

theorem delFrom_none {F : Type} (i : Nat) (fs : List F) : delFrom [] i fs = fs := by
  induction fs generalizing i with
  | nil => rfl
  | cons f fs ih => rw [delFrom_cons, ih]; simp

theorem delFrom_congr {F : Type} (d1 d2 : List Int) (i : Nat) (fs : List F)
    (h : ∀ j : Nat, i ≤ j → ((j : Int) ∈ d1 ↔ (j : Int) ∈ d2)) : delFrom d1 i fs = delFrom d2 i fs := by
  induction fs generalizing i with
  | nil => rfl
  | cons f fs ih =>
    rw [delFrom_cons, delFrom_cons, ih (i + 1) (fun j hj => h j (by omega))]
    simp only [h i (Nat.le_refl _)]

theorem delFrom_small {F : Type} (del : List Int) (i n : Nat) (fs : List F) (h : ∀ x ∈ del, (n + i : Int) < x) :
    (delFrom del i fs)[n]? = fs[n]? := by
  induction fs generalizing i n with
  | nil => simp [delFrom]
  | cons f fs ih =>
    rw [delFrom_cons, if_neg (by intro hm; have := h _ hm; omega)]
    cases n with
    | zero => simp
    | succ n =>
      simp only [List.getElem?_cons_succ]
      exact ih (i + 1) n (fun x hx => by have := h x hx; omega)

theorem delFrom_step {F : Type} (d : Nat) (ds : List Int) (hs : ∀ x ∈ ds, (d : Int) < x) (fs : List F) (i : Nat)
    (hi : i ≤ d) (n : Nat) (hn : d ≤ n + i) :
    (delFrom ((d : Int) :: ds) i fs)[n]? = (delFrom ds i fs)[n + 1]? := by
  induction fs generalizing i n with
  | nil => simp [delFrom]
  | cons f fs ih =>
    rw [delFrom_cons, delFrom_cons]
    by_cases hid : i = d
    · subst hid
      have e : delFrom ((i : Int) :: ds) (i + 1) fs = delFrom ds (i + 1) fs := by
        apply delFrom_congr
        intro j hj
        simp; omega
      have h2 : ¬ (i : Int) ∈ ds := by intro hm; have := hs _ hm; omega
      rw [e, if_pos (by simp), if_neg h2]; simp
    · have h1 : ¬ (i : Int) ∈ (d : Int) :: ds := by
        intro hm
        rcases List.mem_cons.1 hm with h | h
        · omega
        · have := hs _ h; omega
      have h2 : ¬ (i : Int) ∈ ds := fun h => h1 (by simp [h])
      rw [if_neg h1, if_neg h2]
      cases n with
      | zero => omega
      | succ n =>
        simp only [List.getElem?_cons_succ]
        exact ih (i + 1) (by omega) n (by omega)

theorem delFrom_length {F : Type} (d : Nat) (ds : List Int) (hd : (d : Int) ∉ ds) (fs : List F) (i : Nat)
    (hi : i ≤ d) (hlt : d < i + fs.length) :
    (delFrom ((d : Int) :: ds) i fs).length + 1 = (delFrom ds i fs).length := by
  induction fs generalizing i with
  | nil => simp at hlt; omega
  | cons f fs ih =>
    rw [delFrom_cons, delFrom_cons]
    by_cases hid : i = d
    · subst hid
      have e : delFrom ((i : Int) :: ds) (i + 1) fs = delFrom ds (i + 1) fs := by
        apply delFrom_congr
        intro j hj
        simp; omega
      rw [e, if_pos (by simp), if_neg hd]; simp
    · have := ih (i + 1) (by omega) (by simp at hlt; omega)
      have hne : (i : Int) ≠ d := by omega
      by_cases hm : (i : Int) ∈ ds <;> simp [hm, hne] <;> omega

theorem del_length {F : Type} (del : List Int) (hnd : del.Nodup) (fs : List F)
    (hb : ∀ x ∈ del, 0 ≤ x ∧ x < fs.length) :
    (Spec.delete fs del).length + del.length = fs.length := by
  show (delFrom del 0 fs).length + _ = _
  induction del with
  | nil => simp [delFrom_none]
  | cons d ds ih =>
    have hd := hb d (by simp)
    rw [List.nodup_cons] at hnd
    obtain ⟨d', rfl⟩ : ∃ k : Nat, d = (k : Int) := ⟨d.toNat, by omega⟩
    have := delFrom_length d' ds hnd.1 fs 0 (by omega) (by omega)
    have := ih hnd.2 (fun x hx => hb x (by simp [hx]))
    simp only [List.length_cons]; omega

theorem delSrc_spec {F : Type} (del : List Int) (fs : List F) (hs : del.Pairwise (· < ·))
    (hb : ∀ x ∈ del, 0 ≤ x ∧ x < fs.length) (hmax : (fs.length : Int) ≤ INT_MAX) (n : Nat)
    (hn : n + del.length < fs.length) :
    ∃ k : Nat, delSrc del n = .ok k ∧ k < fs.length ∧ (Spec.delete fs del)[n]? = fs[k]? := by
  show ∃ k : Nat, _ ∧ _ ∧ (delFrom del 0 fs)[n]? = _
  induction del generalizing n with
  | nil => exact ⟨n, rfl, by simpa using hn, by simp [delFrom_none]⟩
  | cons d ds ih =>
    rw [List.pairwise_cons] at hs
    have hd := hb d (by simp)
    obtain ⟨d', rfl⟩ : ∃ k : Nat, d = (k : Int) := ⟨d.toNat, by omega⟩
    simp only [List.length_cons] at hn
    by_cases h : d' ≤ n
    · obtain ⟨k, h1, h2, h3⟩ := ih hs.2 (fun x hx => hb x (by simp [hx])) (n + 1) (by omega)
      refine ⟨k, ?_, h2, ?_⟩
      · rw [delSrc, if_pos (by omega), i32_ok]
        · simp only [Res.bind_ok]; rw [← h1]; congr 1
        · simp only [InI32, INT_MIN, INT_MAX] at *; omega
      · rw [delFrom_step d' ds hs.1 fs 0 (by omega) n (by omega), h3]
    · refine ⟨n, ?_, by omega, ?_⟩
      · rw [delSrc, if_neg (by omega)]
      · apply delFrom_small
        intro x hx
        rcases List.mem_cons.1 hx with rfl | h'
        · omega
        · have := hs.1 _ h'; omega

end VS.Reorder
