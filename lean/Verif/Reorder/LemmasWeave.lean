import Verif.Reorder.LemmasMulti

/-! Helper lemmas for Interleave and SelectEvery. -/

namespace VS.Reorder

variable {α : Type}

/-! ### Retiming -/

/-- The products formed when scaling the duration of `f` by `mul/div` fit in 64 bits. -/
def DurFits (f : VFrame α) (mul div : Int) : Prop :=
  ∀ a b, f.durNum = some a → f.durDen = some b → b ≠ 0 → Fits (a * mul) ∧ Fits (b * div)

theorem retime_spec (f : VFrame α) (mul div : Int) (hd : 0 < div) (h : DurFits f mul div) :
    retime f mul div = .ok (Spec.retimed ((mul : Rat) / div) f) := by
  unfold retime Spec.retimed
  cases ha : f.durNum with
  | none => rfl
  | some a =>
    cases hb : f.durDen with
    | none => rfl
    | some b =>
      simp only
      by_cases hb0 : b = 0
      · subst hb0
        rw [C22_zero_den, if_pos rfl]
        simp only [Res.bind_ok, Res.pure_eq]
        congr 1
        rw [← ha, ← hb]
      · rw [if_neg hb0]
        have hf := h a b ha hb hb0
        rw [C22_muldivRational a b mul div hb0 (by omega) hf.1 hf.2]
        simp only [Res.bind_ok, Res.pure_eq, Int.sign_mul, Int.sign_eq_one_of_pos hd, Int.mul_one]

theorem divInt_bounds {n d : Int} (hn : 0 ≤ n) (hd : 0 < d) :
    0 ≤ (Rat.divInt n d).num ∧ (Rat.divInt n d).num ≤ n ∧ ((Rat.divInt n d).den : Int) ≤ d := by
  have h1 := tdiv_gcd_num (n := n) (d := d) (by omega)
  have h2 := tdiv_gcd_den (n := n) (d := d) (by omega)
  rw [Int.sign_eq_one_of_pos hd, Int.one_mul] at h1 h2
  rw [← h1, ← h2]
  refine ⟨?_, ?_, ?_⟩
  · exact Int.tdiv_nonneg hn (Int.natCast_nonneg _)
  · rw [Int.tdiv_eq_ediv_of_nonneg hn]; exact Int.ediv_le_self _ hn
  · rw [Int.tdiv_eq_ediv_of_nonneg (by omega)]; exact Int.ediv_le_self _ (by omega)

/-- Scaling a valid frame rate gives a valid frame rate. -/
theorem rate_valid {vi : VideoInfo} (hv : isValidVideoInfo vi = true) {mul div : Int} (hm : 0 < mul) (hd : 0 < div)
    (hfit : vi.fpsDen ≠ 0 → Fits (vi.fpsNum * mul) ∧ Fits (vi.fpsDen * div)) :
    muldivRational vi.fpsNum vi.fpsDen mul div = .ok (Spec.scaledRate vi.fpsNum vi.fpsDen ((mul : Rat) / div)) ∧
    isValidVideoInfo { vi with fpsNum := (Spec.scaledRate vi.fpsNum vi.fpsDen ((mul : Rat) / div)).1,
                               fpsDen := (Spec.scaledRate vi.fpsNum vi.fpsDen ((mul : Rat) / div)).2 } = true := by
  have hv0 := hv
  unfold isValidVideoInfo at hv
  by_cases hneg : vi.fpsDen < 0 ∨ vi.fpsNum < 0 ∨ vi.height < 0 ∨ vi.width < 0 ∨ vi.numFrames < 1
  · rw [if_pos hneg] at hv; simp at hv
  rw [if_neg hneg] at hv
  by_cases h0 : vi.fpsDen = 0
  · have e : Spec.scaledRate vi.fpsNum vi.fpsDen ((mul : Rat) / div) = (vi.fpsNum, vi.fpsDen) := by
      simp [Spec.scaledRate, h0]
    rw [e]
    refine ⟨by simp [muldivRational, h0], hv0⟩
  · have hf := hfit h0
    have hpos : 0 < vi.fpsDen * div := Int.mul_pos (by omega) hd
    have hnn : 0 ≤ vi.fpsNum * mul := Int.mul_nonneg (by omega) (by omega)
    have hq : ((vi.fpsNum : Rat) / vi.fpsDen) * ((mul : Rat) / div) = Rat.divInt (vi.fpsNum * mul) (vi.fpsDen * div) := by
      simp only [← Rat.divInt_eq_div, Rat.divInt_mul_divInt]
    have hb := divInt_bounds hnn hpos
    have e : Spec.scaledRate vi.fpsNum vi.fpsDen ((mul : Rat) / div) =
        ((Rat.divInt (vi.fpsNum * mul) (vi.fpsDen * div)).num,
          ((Rat.divInt (vi.fpsNum * mul) (vi.fpsDen * div)).den : Int)) := by
      simp only [Spec.scaledRate, if_neg h0, hq]
    have hm' := C22_muldivRational vi.fpsNum vi.fpsDen mul div h0 (by omega) hf.1 hf.2
    simp only [hq, Int.sign_eq_one_of_pos hpos, Int.one_mul] at hm'
    rw [e]
    refine ⟨hm', ?_⟩
    generalize hQ : Rat.divInt (vi.fpsNum * mul) (vi.fpsDen * div) = q at *
    have hden : 0 < q.den := q.den_pos
    have hred : reduceRational q.num q.den = .ok (q.num, (q.den : Int)) := by
      have hr := C22_reduceRational q.num q.den (by omega)
        (by simp only [Fits, INT64_MIN, INT64_MAX] at *; omega)
        (by simp only [Fits, INT64_MIN, INT64_MAX] at *; omega)
      have hqq : ((q.num : Int) : Rat) / ((q.den : Int) : Rat) = q := by
        rw [← Rat.divInt_eq_div, Rat.num_divInt_den]
      simp only [hqq, Int.sign_eq_one_of_pos (show 0 < (q.den : Int) by omega), Int.one_mul] at hr
      exact hr
    unfold isValidVideoInfo
    rw [if_neg (by simp only; omega)]
    simp only [hred, ne_eq, not_true, if_false]
    split at hv
    · simp at hv
    · exact hv

/-! ### Interleave length -/

/-- `Spec.wovenLength` with a running index and maximum. -/
def wovenFrom (m i : Nat) (counts : List Nat) (acc : Nat) : Nat :=
  ((counts.zipIdx i).map (fun p => (p.1 - 1) * m + p.2 + 1)).foldl max acc

theorem wovenFrom_cons (m i c : Nat) (cs : List Nat) (acc : Nat) :
    wovenFrom m i (c :: cs) acc = wovenFrom m (i + 1) cs (max acc ((c - 1) * m + i + 1)) := by
  simp [wovenFrom]

theorem le_wovenFrom (m i : Nat) (cs : List Nat) (acc : Nat) : acc ≤ wovenFrom m i cs acc := by
  induction cs generalizing i acc with
  | nil => simp [wovenFrom]
  | cons c cs ih =>
    rw [wovenFrom_cons]
    have := ih (i + 1) (max acc ((c - 1) * m + i + 1))
    omega

theorem check_iff (m i c : Nat) (hm : 0 < m) (hi : (i : Int) < INT_MAX) (hc : 1 ≤ c) :
    (c : Int) > (INT_MAX - i - 1).tdiv m + 1 ↔ INT_MAX < (((c - 1) * m + i + 1 : Nat) : Int) := by
  rw [Int.tdiv_eq_ediv_of_nonneg (by omega)]
  have h1 : (c : Int) ≤ (INT_MAX - i - 1) / m + 1 ↔ ((c : Int) - 1) * m ≤ INT_MAX - i - 1 := by
    rw [← Int.le_ediv_iff_mul_le (by omega)]; omega
  have h2 : (((c - 1) * m + i + 1 : Nat) : Int) = ((c : Int) - 1) * m + i + 1 := by
    obtain ⟨c', rfl⟩ : ∃ c', c = c' + 1 := ⟨c - 1, by omega⟩
    simp
  rw [h2]
  omega

theorem interleaveCount_sticky (m : Nat) (hm : 0 < m) (cs : List Nat) : ∀ (i : Nat) (acc : Int),
    (i + cs.length : Int) ≤ INT_MAX → (∀ c ∈ cs, 1 ≤ c) →
    ∃ v, interleaveCount m i (cs.map (fun c : Nat => (c : Int))) acc true = .ok (v, true) := by
  induction cs with
  | nil => intro i acc _ _; exact ⟨acc, rfl⟩
  | cons c cs ih =>
    intro i acc hi hc
    simp only [List.map_cons, interleaveCount]
    simp only [List.length_cons] at hi
    have hck := check_iff m i c hm (by omega) (hc c (by simp))
    split
    · have := ih (i + 1) acc (by omega) (fun c' hc' => hc c' (by simp [hc']))
      simpa using this
    · rename_i hn
      rw [hck, Int.not_lt] at hn
      have h2 : (((c - 1) * m + i + 1 : Nat) : Int) = ((c : Int) - 1) * m + i + 1 := by
        have := hc c (by simp)
        obtain ⟨c', rfl⟩ : ∃ c', c = c' + 1 := ⟨c - 1, by omega⟩
        simp
      rw [i32_ok (by rw [← h2]; simp only [InI32, INT_MIN]; omega)]
      simp only [Res.bind_ok]
      have := ih (i + 1) (max acc (((c : Int) - 1) * m + i + 1)) (by omega) (fun c' hc' => hc c' (by simp [hc']))
      simpa using this

theorem interleaveCount_spec (m : Nat) (hm : 0 < m) (cs : List Nat) : ∀ (i acc : Nat),
    (i + cs.length : Int) ≤ INT_MAX → (∀ c ∈ cs, 1 ≤ c) →
    ((wovenFrom m i cs acc : Int) ≤ INT_MAX →
      interleaveCount m i (cs.map (fun c : Nat => (c : Int))) acc false = .ok ((wovenFrom m i cs acc : Int), false)) ∧
    (INT_MAX < (wovenFrom m i cs acc : Int) → (acc : Int) ≤ INT_MAX →
      ∃ v, interleaveCount m i (cs.map (fun c : Nat => (c : Int))) acc false = .ok (v, true)) := by
  induction cs with
  | nil => intro i acc _ _; simp [wovenFrom, interleaveCount]
  | cons c cs ih =>
    intro i acc hi hc
    simp only [List.map_cons, interleaveCount]
    simp only [List.length_cons] at hi
    have hck := check_iff m i c hm (by omega) (hc c (by simp))
    have h2 : (((c - 1) * m + i + 1 : Nat) : Int) = ((c : Int) - 1) * m + i + 1 := by
      have := hc c (by simp)
      obtain ⟨c', rfl⟩ : ∃ c', c = c' + 1 := ⟨c - 1, by omega⟩
      simp
    rw [wovenFrom_cons]
    split
    · rename_i hn
      rw [hck] at hn
      have hle := le_wovenFrom m (i + 1) cs (max acc ((c - 1) * m + i + 1))
      refine ⟨fun h => by omega, fun _ _ => ?_⟩
      have := interleaveCount_sticky m hm cs (i + 1) acc (by omega) (fun c' hc' => hc c' (by simp [hc']))
      simpa using this
    · rename_i hn
      rw [hck, Int.not_lt] at hn
      rw [i32_ok (by rw [← h2]; simp only [InI32, INT_MIN]; omega)]
      simp only [Res.bind_ok]
      have hmax : max (acc : Int) (((c : Int) - 1) * m + i + 1) = ((max acc ((c - 1) * m + i + 1) : Nat) : Int) := by
        rw [← h2]; omega
      have := ih (i + 1) (max acc ((c - 1) * m + i + 1)) (by omega) (fun c' hc' => hc c' (by simp [hc']))
      rw [hmax]
      refine ⟨fun h => ?_, fun h hacc => ?_⟩
      · have := this.1 h
        simpa using this
      · have := this.2 h (by omega)
        simpa using this

/-! ### SelectEvery -/

theorem flatMap_range_const {F : Type} (g : Nat → List F) (num : Nat) (full : Nat)
    (h : ∀ c, c < full → (g c).length = num) :
    ((List.range full).flatMap g).length = full * num ∧
    ∀ n, n < full * num → ((List.range full).flatMap g)[n]? = (g (n / num))[n % num]? := by
  induction full with
  | zero => simp
  | succ full ih =>
    obtain ⟨ih1, ih2⟩ := ih (fun c hc => h c (by omega))
    have hl := h full (by omega)
    rw [List.range_succ, List.flatMap_append]
    simp only [List.flatMap_cons, List.flatMap_nil, List.append_nil]
    refine ⟨by rw [List.length_append, ih1, hl, Nat.succ_mul], ?_⟩
    intro n hn
    rw [Nat.succ_mul] at hn
    by_cases hlt : n < full * num
    · rw [List.getElem?_append_left (by omega), ih2 n hlt]
    · rw [List.getElem?_append_right (by omega), ih1]
      have hnum : 0 < num := by omega
      have hdiv : n / num = full := by
        apply Nat.div_eq_of_lt_le
        · omega
        · rw [Nat.succ_mul]; omega
      have hmod : n - full * num = n % num := by
        have := Nat.div_add_mod n num
        rw [hdiv, Nat.mul_comm] at this
        omega
      rw [hdiv, hmod]

theorem filterMap_all {A B : Type} (h : A → Option B) (l : List A) (hs : ∀ a ∈ l, (h a).isSome) :
    (l.filterMap h).length = l.length ∧ ∀ j : Nat, (l.filterMap h)[j]? = l[j]?.bind h := by
  induction l with
  | nil => simp
  | cons a l ih =>
    obtain ⟨ih1, ih2⟩ := ih (fun x hx => hs x (by simp [hx]))
    obtain ⟨b, hb⟩ := Option.isSome_iff_exists.1 (hs a (by simp))
    rw [List.filterMap_cons_some hb]
    refine ⟨by simp [ih1], ?_⟩
    intro j
    cases j with
    | zero => simp [hb]
    | succ j => simp [ih2]

theorem filterMap_filter {A B : Type} (h : A → Option B) (p : A → Bool) (l : List A)
    (hp : ∀ a ∈ l, p a = false → h a = none) : l.filterMap h = (l.filter p).filterMap h := by
  induction l with
  | nil => rfl
  | cons a l ih =>
    have ih := ih (fun x hx => hp x (by simp [hx]))
    cases hpa : p a with
    | true => rw [List.filter_cons_of_pos hpa, List.filterMap_cons, List.filterMap_cons, ih]
    | false =>
      rw [List.filter_cons_of_neg (by simp [hpa]), List.filterMap_cons_none (hp a (by simp) hpa), ih]

/-- Length and contents of the specification of SelectEvery, split into full cycles and the tail. -/
theorem selectEvery_get {F : Type} (frames : List F) (cyc : Nat) (offs : List Nat) (hcyc : 0 < cyc)
    (ho : ∀ o ∈ offs, o < cyc) :
    let full := frames.length / cyc
    let tail := offs.filter (fun o => decide (o < frames.length % cyc))
    (Spec.selectEvery frames cyc offs).length = full * offs.length + tail.length ∧
    ∀ n, n < full * offs.length + tail.length →
      (Spec.selectEvery frames cyc offs)[n]? =
        ((if n / offs.length = full then tail else offs)[n % offs.length]?).bind
          (fun o => frames[n / offs.length * cyc + o]?) ∧ n / offs.length ≤ full := by
  intro full tail
  have hN := Nat.div_add_mod frames.length cyc
  have hR := Nat.mod_lt frames.length hcyc
  -- tail cycle
  have htail : (offs.filterMap fun o => frames[full * cyc + o]?) = tail.filterMap fun o => frames[full * cyc + o]? := by
    apply filterMap_filter
    intro o _ hf
    rw [List.getElem?_eq_none]
    simp at hf
    rw [Nat.mul_comm] at hN
    show frames.length ≤ frames.length / cyc * cyc + o
    omega
  have htl := filterMap_all (fun o => frames[full * cyc + o]?) tail (by
    intro o hm
    have := (List.mem_filter.1 hm).2
    simp at this
    rw [Nat.mul_comm] at hN
    rw [List.getElem?_eq_getElem (by show frames.length / cyc * cyc + o < _; omega)]
    rfl)
  have hfullc : ∀ c, c < full → ∀ o ∈ offs, c * cyc + o < frames.length := by
    intro c hc o hm
    have h1 := ho o hm
    have h2 : (c + 1) * cyc ≤ full * cyc := Nat.mul_le_mul_right _ hc
    rw [Nat.succ_mul] at h2
    rw [Nat.mul_comm] at hN
    have : full * cyc = frames.length / cyc * cyc := rfl
    omega
  have hfl : ∀ c, c < full → (offs.filterMap fun o => frames[c * cyc + o]?).length = offs.length ∧
      ∀ j : Nat, (offs.filterMap fun o => frames[c * cyc + o]?)[j]? = offs[j]?.bind (fun o => frames[c * cyc + o]?) := by
    intro c hc
    apply filterMap_all
    intro o hm
    rw [List.getElem?_eq_getElem (hfullc c hc o hm)]; rfl
  have hconst := flatMap_range_const (fun c => offs.filterMap fun o => frames[c * cyc + o]?) offs.length full
    (fun c hc => (hfl c hc).1)
  have hsplit : Spec.selectEvery frames cyc offs =
      ((List.range full).flatMap fun c => offs.filterMap fun o => frames[c * cyc + o]?) ++
        tail.filterMap fun o => frames[full * cyc + o]? := by
    unfold Spec.selectEvery
    by_cases hr : frames.length % cyc = 0
    · have e : (frames.length + cyc - 1) / cyc = full := by
        have h1 : frames.length + cyc - 1 = (cyc - 1) + cyc * (frames.length / cyc) := by omega
        rw [h1, Nat.add_mul_div_left _ _ hcyc, Nat.div_eq_of_lt (by omega)]
        simp [full]
      have et : tail = [] := by simp [tail, hr]
      rw [e, et]; simp
    · have e : (frames.length + cyc - 1) / cyc = full + 1 := by
        have h1 : frames.length + cyc - 1 = (frames.length % cyc - 1) + cyc * (frames.length / cyc + 1) := by
          rw [Nat.mul_succ]; omega
        rw [h1, Nat.add_mul_div_left _ _ hcyc, Nat.div_eq_of_lt (by omega)]
        simp [full]
      rw [e, List.range_succ, List.flatMap_append]
      simp only [List.flatMap_cons, List.flatMap_nil, List.append_nil]
      rw [htail]
  have htle : tail.length ≤ offs.length := List.length_filter_le _ _
  refine ⟨by rw [hsplit, List.length_append, hconst.1, htl.1], ?_⟩
  intro n hn
  rw [hsplit]
  by_cases hlt : n < full * offs.length
  · have hpos : 0 < offs.length := by
      rcases Nat.eq_zero_or_pos offs.length with h | h
      · rw [h] at hlt; omega
      · exact h
    have hd : n / offs.length < full := (Nat.div_lt_iff_lt_mul hpos).2 hlt
    rw [List.getElem?_append_left (by rw [hconst.1]; exact hlt), hconst.2 n hlt, (hfl _ hd).2, if_neg (by omega)]
    exact ⟨rfl, by omega⟩
  · have hpos : 0 < offs.length := by omega
    have hdiv : n / offs.length = full := by
      apply Nat.div_eq_of_lt_le
      · omega
      · rw [Nat.succ_mul]; omega
    have hmod : n - full * offs.length = n % offs.length := by
      have := Nat.div_add_mod n offs.length
      rw [hdiv, Nat.mul_comm] at this
      omega
    rw [List.getElem?_append_right (by rw [hconst.1]; omega), hconst.1, htl.2, hmod, if_pos hdiv, hdiv]
    exact ⟨rfl, Nat.le_refl _⟩

end VS.Reorder
