import Verif.ExprFilter.Jit
import Verif.Frame.Model

/-!
# C101: the compiled code of Expr stays within the rows
-/

namespace VS.ExprFilter.Jit
open VS VS.Expr VS.ExprFilter

/-! ## Specification -/

/-- The bytes of a sample in memory. -/
def sampleBytes : Mem → Nat
  | .u8 => 1
  | .u16 => 2
  | .f16 => 2
  | .f32 => 4

/-- `size` bytes at `addr` are among the `len` bytes at `start`. -/
def Inside (start len addr size : Nat) : Prop := start ≤ addr ∧ addr + size ≤ start + len

/-- The address of the row `y` of a plane at `base`. -/
def rowAt (al w y : Nat) (p : Nat × Mem) : Nat := p.1 + Frame.strideOf al w (sampleBytes p.2) * y

/-- The accesses of an iteration take the bytes of `lanes` samples, each byte once. -/
def Covers (l : List Access) (bytes : Nat) : Prop :=
  ∀ x, x < bytes → (l.filter fun a => decide (a.off ≤ x ∧ x < a.off + a.size)).length = 1

/-! ## Lemmas -/

theorem advance_ok {e n : Nat} {O P : List Nat} (he : 0 < e) (hP : e * (n / e + 1) ≤ P.length) (hO : e * (n / e + 1) ≤ O.length) :
    ∃ Q, advance e n O P = .ok Q ∧ Q.length = P.length ∧ ∀ i, i ≤ n → Q.getD i 0 = P.getD i 0 + O.getD i 0 := by
  unfold advance
  rw [if_neg (by omega)]
  refine ⟨_, rfl, by simp, ?_⟩
  intro i hi
  have hn : n < e * (n / e + 1) := Nat.lt_mul_div_succ n he
  have h1 : i < e * (n / e + 1) := by omega
  have h2 : i < P.length := by omega
  simp [List.getD_eq_getElem?_getD, List.getElem?_map, List.getElem?_range h2, h1]

theorem wloop_ok {e n : Nat} {O : List Nat} (he : 0 < e) (hO : e * (n / e + 1) ≤ O.length) :
    ∀ (k : Nat) (P : List Nat), 0 < k → e * (n / e + 1) ≤ P.length →
      ∃ l, wloop e n O k P = .ok l ∧ l.length = k ∧
        ∀ j, j < k → ∀ i, i ≤ n → (l.getD j []).getD i 0 = P.getD i 0 + j * O.getD i 0 := by
  intro k
  induction k with
  | zero => intro P h; omega
  | succ k ih =>
    intro P _ hP
    obtain ⟨Q, hQ, hl, hv⟩ := advance_ok he hP hO
    by_cases hk : k = 0
    · subst hk
      refine ⟨[P], ?_, rfl, ?_⟩
      · show (advance e n O P >>= fun P' => _) = _
        rw [hQ]; rfl
      · intro j hj i _
        have : j = 0 := by omega
        subst this
        simp
    · obtain ⟨l, h1, h2, h3⟩ := ih Q (by omega) (by omega)
      refine ⟨P :: l, ?_, by simp [h2], ?_⟩
      · show (advance e n O P >>= fun P' => _) = _
        rw [hQ]
        show (if k = 0 then (Res.ok [P]) else (wloop e n O k Q >>= fun l => Res.ok (P :: l))) = _
        rw [if_neg hk, h1]; rfl
      · intro j hj i hi
        cases j with
        | zero => simp
        | succ j =>
          show (l.getD j []).getD i 0 = _
          rw [h3 j (by omega) i hi, hv i hi, Nat.succ_mul]
          omega

theorem padded_getD (l : List Nat) (i : Nat) (h : i < 32) : (padded l).getD i 0 = l.getD i 0 := by
  have h' : i < slots := h
  simp [padded, List.getD_eq_getElem?_getD, List.getElem?_map, List.getElem?_range h']

theorem padded_length (l : List Nat) : (padded l).length = 32 := by
  simp [padded, slots]

theorem entries_fit (t : Tier) (b : Bool) (n : Nat) (h : n ≤ 26) : 0 < t.entries b ∧ t.entries b * (n / t.entries b + 1) ≤ 32 := by
  cases t <;> cases b <;> simp only [Tier.entries] <;> simp <;> omega

theorem group_dvd (c : Cpu) (a b : Bool) (m : Mem) : (tier c a b).lanes * sampleBytes m ∣ c.alignment := by
  obtain ⟨c1, c2, c3, c4, c5, c6⟩ := c
  revert c1 c2 c3 c4 c5 c6 a b
  cases m <;> decide

theorem access_fits (t : Tier) (m : Mem) : ∀ a ∈ loads t m ++ stores t m,
    a.off + a.size ≤ t.lanes * sampleBytes m ∧ a.align ∣ a.off ∧ a.align ∣ t.lanes * sampleBytes m := by
  cases t <;> cases m <;> simp [loads, stores, Tier.lanes, sampleBytes]

theorem access_covers (t : Tier) (m : Mem) :
    Covers (loads t m) (t.lanes * sampleBytes m) ∧ Covers (stores t m) (t.lanes * sampleBytes m) := by
  unfold Covers
  cases t <;> cases m <;> decide

theorem lanes_pos (t : Tier) : 0 < t.lanes := by cases t <;> decide

theorem stride_dvd (al w b : Nat) : al ∣ Frame.strideOf al w b := Nat.dvd_mul_left _ _

theorem le_stride (al w b : Nat) (h : 0 < al) : w * b ≤ Frame.strideOf al w b := by
  unfold Frame.strideOf
  have h1 := Nat.div_add_mod (w * b + (al - 1)) al
  have h2 := Nat.mod_lt (w * b + (al - 1)) h
  rw [Nat.mul_comm] at h1
  omega

theorem group_le {al w b L j : Nat} (hal : 0 < al) (hL : 0 < L) (hb : 0 < b) (hd : L * b ∣ al) (hj : j < (w + L - 1) / L) :
    (j + 1) * (L * b) ≤ Frame.strideOf al w b := by
  have h1 : (j + 1) * L ≤ w + L - 1 := (Nat.le_div_iff_mul_le hL).1 hj
  have h2 : j * L < w := by rw [Nat.succ_mul] at h1; omega
  have h3 : j * L * b < w * b := Nat.mul_lt_mul_of_pos_right h2 hb
  have h4 := le_stride al w b hal
  obtain ⟨q, hq⟩ := Nat.dvd_trans hd (stride_dvd al w b)
  rw [hq] at h4 ⊢
  have h5 : (L * b) * j < (L * b) * q := by
    have : (L * b) * j = j * L * b := by rw [Nat.mul_comm, Nat.mul_assoc]
    omega
  have h6 : j < q := Nat.lt_of_mul_lt_mul_left h5
  rw [Nat.mul_comm]
  exact Nat.mul_le_mul_left _ h6

/-! ## Theorems -/

/-- C101. For each processor, level and kind of program, and for up to 26 clips: the loop for a row ends, it stays within the arrays of
pointers, and each access to the result or a clip is within the row (with its padding) and aligned as the instruction needs it. -/
theorem C101_within (c : Cpu) (lv2 lv512 bits64 : Bool) (w y : Nat) (ps : List (Nat × Mem)) (hw : 0 < w)
    (hn : 0 < ps.length) (hm : ps.length ≤ 27) (hal : ∀ p ∈ ps, c.alignment ∣ p.1) :
    ∃ its, line (tier c lv2 lv512) bits64 w (ps.map (rowAt c.alignment w y)) (ps.map fun p => sampleBytes p.2) = .ok its ∧
      ∀ j, j < its.length → ∀ i, (h : i < ps.length) → ∀ a ∈ loads (tier c lv2 lv512) ps[i].2 ++ stores (tier c lv2 lv512) ps[i].2,
        Inside (rowAt c.alignment w y ps[i]) (Frame.strideOf c.alignment w (sampleBytes ps[i].2))
          ((its.getD j []).getD i 0 + a.off) a.size ∧
        a.align ∣ (its.getD j []).getD i 0 + a.off := by
  generalize ht : tier c lv2 lv512 = t
  have hL := lanes_pos t
  obtain ⟨he, hf⟩ := entries_fit t bits64 (ps.length - 1) (by omega)
  have hk : 0 < (w + t.lanes - 1) / t.lanes := Nat.div_pos (by omega) hL
  obtain ⟨l, h1, h2, h3⟩ := wloop_ok (n := ps.length - 1) (O := padded ((ps.map fun p => sampleBytes p.2).map (· * t.lanes))) he
    (by rw [padded_length]; exact hf) _ (padded (ps.map (rowAt c.alignment w y))) hk (by rw [padded_length]; exact hf)
  refine ⟨l, by simpa [line] using h1, ?_⟩
  intro j hj i hi a ha
  have hv := h3 j (by omega) i (by omega)
  rw [padded_getD _ _ (by omega), padded_getD _ _ (by omega)] at hv
  have hv' : (l.getD j []).getD i 0 = rowAt c.alignment w y ps[i] + j * (sampleBytes ps[i].2 * t.lanes) := by
    rw [hv]; simp [List.getD_eq_getElem?_getD, List.getElem?_map, hi]
  rw [hv']
  obtain ⟨a1, a2, a3⟩ := access_fits t ps[i].2 a ha
  have hd : t.lanes * sampleBytes ps[i].2 ∣ c.alignment := ht ▸ group_dvd c lv2 lv512 ps[i].2
  have hb : 0 < sampleBytes ps[i].2 := by cases ps[i].2 <;> decide
  have hal0 : 0 < c.alignment := by unfold Cpu.alignment; split <;> decide
  have hg := group_le hal0 hL hb hd (by rw [← h2]; exact hj)
  have hbase : c.alignment ∣ ps[i].1 := hal _ (List.getElem_mem hi)
  rw [Nat.mul_comm (sampleBytes _) t.lanes]
  rw [Nat.succ_mul] at hg
  refine ⟨⟨by omega, by omega⟩, ?_⟩
  have hal' : a.align ∣ c.alignment := Nat.dvd_trans a3 hd
  refine Nat.dvd_add (Nat.dvd_add (Nat.dvd_add (Nat.dvd_trans hal' hbase) ?_) ?_) a2
  · exact Nat.dvd_trans (Nat.dvd_trans hal' (stride_dvd _ _ _)) (Nat.dvd_mul_right _ _)
  · exact Nat.dvd_trans a3 (Nat.dvd_mul_left _ _)

/-- C101. Each sample of the row belongs to exactly one lane of one iteration, and the accesses of an iteration take each byte of its
lanes once. -/
theorem C101_samples (c : Cpu) (lv2 lv512 bits64 : Bool) (w y : Nat) (ps : List (Nat × Mem)) (hw : 0 < w)
    (hn : 0 < ps.length) (hm : ps.length ≤ 27) :
    ∃ its, line (tier c lv2 lv512) bits64 w (ps.map (rowAt c.alignment w y)) (ps.map fun p => sampleBytes p.2) = .ok its ∧
      ∀ i, (h : i < ps.length) →
        Covers (loads (tier c lv2 lv512) ps[i].2) ((tier c lv2 lv512).lanes * sampleBytes ps[i].2) ∧
        Covers (stores (tier c lv2 lv512) ps[i].2) ((tier c lv2 lv512).lanes * sampleBytes ps[i].2) ∧
        ∀ x, x < w → ∃ j k, (j < its.length ∧ k < (tier c lv2 lv512).lanes ∧
            (its.getD j []).getD i 0 + k * sampleBytes ps[i].2 = rowAt c.alignment w y ps[i] + x * sampleBytes ps[i].2) ∧
          ∀ j' k', j' < its.length → k' < (tier c lv2 lv512).lanes →
            (its.getD j' []).getD i 0 + k' * sampleBytes ps[i].2 = rowAt c.alignment w y ps[i] + x * sampleBytes ps[i].2 →
            j' = j ∧ k' = k := by
  generalize tier c lv2 lv512 = t
  have hL := lanes_pos t
  obtain ⟨he, hf⟩ := entries_fit t bits64 (ps.length - 1) (by omega)
  have hk : 0 < (w + t.lanes - 1) / t.lanes := Nat.div_pos (by omega) hL
  obtain ⟨l, h1, h2, h3⟩ := wloop_ok (n := ps.length - 1) (O := padded ((ps.map fun p => sampleBytes p.2).map (· * t.lanes))) he
    (by rw [padded_length]; exact hf) _ (padded (ps.map (rowAt c.alignment w y))) hk (by rw [padded_length]; exact hf)
  refine ⟨l, by simpa [line] using h1, ?_⟩
  intro i hi
  refine ⟨(access_covers t _).1, (access_covers t _).2, ?_⟩
  have hb : 0 < sampleBytes ps[i].2 := by cases ps[i].2 <;> decide
  have hv : ∀ j, j < l.length → ∀ k, (l.getD j []).getD i 0 + k * sampleBytes ps[i].2 =
      rowAt c.alignment w y ps[i] + (t.lanes * j + k) * sampleBytes ps[i].2 := by
    intro j hj k
    have hv := h3 j (by omega) i (by omega)
    rw [padded_getD _ _ (by omega), padded_getD _ _ (by omega)] at hv
    rw [hv, Nat.add_mul]
    simp [List.getD_eq_getElem?_getD, List.getElem?_map, hi]
    have : j * (sampleBytes ps[i].2 * t.lanes) = t.lanes * j * sampleBytes ps[i].2 := by
      rw [Nat.mul_comm (sampleBytes _), ← Nat.mul_assoc, Nat.mul_comm j]
    omega
  intro x hx
  have hj : x / t.lanes < l.length := by
    rw [h2]
    refine (Nat.le_div_iff_mul_le hL).2 ?_
    have := Nat.div_mul_le_self x t.lanes
    rw [Nat.succ_mul]; omega
  refine ⟨x / t.lanes, x % t.lanes, ⟨hj, Nat.mod_lt _ hL, ?_⟩, ?_⟩
  · rw [hv _ hj, Nat.div_add_mod]
  · intro j' k' hj' hk' h
    rw [hv _ hj'] at h
    have h' : t.lanes * j' + k' = x := Nat.eq_of_mul_eq_mul_right hb (by omega)
    subst h'
    rw [Nat.mul_add_div hL, Nat.div_eq_of_lt hk', Nat.mul_add_mod, Nat.mod_eq_of_lt hk']
    exact ⟨rfl, rfl⟩

/-! ## Examples -/

/-- A processor with all of AVX-512, a row of 17 samples, result of 4 bytes and clip of 1 byte: two iterations of 16 samples. -/
example : line (tier ⟨true, true, true, true, true, true⟩ true true) true 17
    ([(640, Mem.f32), (6400, Mem.u8)].map (rowAt 64 17 1)) [4, 1] =
    .ok [padded [768, 6464], padded [832, 6480]] := by decide

example : ∃ its, line (tier ⟨true, true, true, true, true, true⟩ true true) true 17
      ([(640, Mem.f32), (6400, Mem.u8)].map (rowAt 64 17 1)) [4, 1] = .ok its ∧ 1 < its.length := by
  exact ⟨[padded [768, 6464], padded [832, 6480]], by decide, by decide⟩

example : (0 : Nat) < 17 ∧ 0 < [(640, Mem.f32), (6400, Mem.u8)].length ∧ [(640, Mem.f32), (6400, Mem.u8)].length ≤ 27 ∧
    ∀ p ∈ [(640, Mem.f32), (6400, Mem.u8)], (⟨true, true, true, true, true, true⟩ : Cpu).alignment ∣ p.1 := by
  decide

end VS.ExprFilter.Jit
