import Verif.Generic.ConvCell
import Verif.Generic.Lemmas3

/-! # The result of a convolution and its arguments -/

namespace VS.Generic
open VS VS.Format VS.Map VS.Map.Spec VS.Pix VS.Pix.Spec VS.Point VS.Point.Spec VS.Pixel VS.Pixel.Spec VS.Generic.Spec

variable (F : Floats)

/-! ## The result -/

theorem rabs_zero : rabs 0 = 0 := by
  unfold rabs
  grind

/-- The product of two rounded numbers. -/
theorem prod_close {A A' d i r E : Rat} (hA : rabs (A' - A) ≤ rabs A / 2 ^ 23) (hi : i = 1 / d)
    (hr : rabs (r - i) ≤ rabs i / 2 ^ 24 + 1 / 2 ^ 149) (hE : rabs A ≤ 2 ^ 40) (hAd : E = A * i) :
    rabs (A' * r - E) ≤ rabs E / 2 ^ 22 + 1 / 2 ^ 107 := by
  subst hAd
  have e : A' * r - A * i = (A' - A) * i + A' * (r - i) := by grind
  have h1 := rabs_add ((A' - A) * i) (A' * (r - i))
  rw [← e, rabs_mul, rabs_mul] at h1
  have h2 : rabs A' ≤ rabs A * (1 + 1 / 2 ^ 23) := by
    have := rabs_add (A' - A) A
    rw [show A' - A + A = A' by grind] at this
    grind
  have h3 : rabs (A' - A) * rabs i ≤ rabs A / 2 ^ 23 * rabs i := Rat.mul_le_mul_of_nonneg_right hA (rabs_nonneg i)
  have h4 : rabs A' * rabs (r - i) ≤ rabs A * (1 + 1 / 2 ^ 23) * rabs (r - i) := Rat.mul_le_mul_of_nonneg_right h2 (rabs_nonneg _)
  have h5 : rabs (r - i) * (rabs A * (1 + 1 / 2 ^ 23)) ≤ (rabs i / 2 ^ 24 + 1 / 2 ^ 149) * (rabs A * (1 + 1 / 2 ^ 23)) := by
    refine Rat.mul_le_mul_of_nonneg_right hr ?_
    have := rabs_nonneg A
    grind
  rw [rabs_mul]
  have h6 : 0 ≤ rabs A * rabs i := Rat.mul_nonneg (rabs_nonneg _) (rabs_nonneg _)
  have h7 := rabs_nonneg A
  generalize rabs A = a at *
  generalize rabs i = j at *
  generalize rabs (r - i) = u at *
  have h8 : a * j = j * a := by grind
  generalize hP : a * j = P at *
  have e1 : a / 2 ^ 23 * j = P / 2 ^ 23 := by rw [← hP]; grind
  have e2 : (j / 2 ^ 24 + 1 / 2 ^ 149) * (a * (1 + 1 / 2 ^ 23)) = (P / 2 ^ 24 + a / 2 ^ 149) * (1 + 1 / 2 ^ 23) := by rw [← hP]; grind
  rw [e1] at h3
  rw [e2] at h5
  rw [show a * (1 + 1 / 2 ^ 23) * u = u * (a * (1 + 1 / 2 ^ 23)) by grind] at h4
  grind

theorem rabs_sub_le (a b : Rat) : rabs (rabs a - rabs b) ≤ rabs (a - b) := by
  unfold rabs
  repeat' split
  all_goals grind

/-- The number before it is rounded to an integer. -/
theorem scale_close {a : Int} (ha : a.natAbs ≤ 2 ^ 40) {d b : Rat} :
    rabs (F.muladd (F.rnd a) (F.rnd (1 / d)) b - ((a : Rat) / d + b)) ≤ (rabs ((a : Rat) / d) + rabs b) / 2 ^ 20 + 1 / 2 ^ 100 := by
  have hA : rabs (F.rnd a - a) ≤ rabs (a : Rat) / 2 ^ 23 := by
    by_cases h0 : a = 0
    · rw [F.rnd_int a (by omega), Rat.sub_self, h0, rabs_zero]
      have e : ((0 : Int) : Rat) = 0 := rfl
      rw [e, rabs_zero]
      grind
    · have h1 := F.rnd_close a
      have h2 : 1 ≤ rabs (a : Rat) := by
        unfold rabs
        by_cases hneg : a < 0
        · have := Rat.intCast_le_intCast.2 (show a ≤ -1 by omega)
          have := Rat.intCast_lt_intCast.2 hneg
          rw [if_pos (by simpa using this)]
          have e : ((-1 : Int) : Rat) = -1 := rfl
          grind
        · have := Rat.intCast_le_intCast.2 (show 1 ≤ a by omega)
          have e : ((1 : Int) : Rat) = 1 := rfl
          rw [if_neg (by grind)]
          grind
      grind
  have hE : rabs (a : Rat) ≤ 2 ^ 40 := by
    rw [rabs_le]
    have h1 := Rat.intCast_le_intCast.2 (show -2 ^ 40 ≤ a by omega)
    have h2 := Rat.intCast_le_intCast.2 (show a ≤ 2 ^ 40 by omega)
    have e1 : ((-2 ^ 40 : Int) : Rat) = -2 ^ 40 := by rfl
    have e2 : ((2 ^ 40 : Int) : Rat) = 2 ^ 40 := by rfl
    rw [e1] at h1
    rw [e2] at h2
    exact ⟨h1, h2⟩
  have hp := prod_close hA rfl (F.rnd_close (1 / d)) hE (show (a : Rat) / d = a * (1 / d) by grind)
  have hm := F.muladd_close (F.rnd a) (F.rnd (1 / d)) b
  generalize F.muladd (F.rnd a) (F.rnd (1 / d)) b = M at *
  generalize F.rnd a * F.rnd (1 / d) = P at *
  generalize (a : Rat) / d = E at *
  have h1 : rabs P ≤ rabs E + (rabs E / 2 ^ 22 + 1 / 2 ^ 107) := by
    have := rabs_add (P - E) E
    rw [show P - E + E = P by grind] at this
    grind
  have h2 := rabs_add (M - (P + b)) (P - E)
  rw [show M - (P + b) + (P - E) = M - (E + b) by grind] at h2
  have := rabs_nonneg E
  have := rabs_nonneg b
  grind

theorem clamp_lip (p q t : Rat) : rabs (max 0 (min p t) - max 0 (min q t)) ≤ rabs (p - q) := by
  rw [rabs_le]
  unfold rabs
  grind

theorem lrint_int (z : Int) : lrint z = z := by
  have h := rabs_le.1 (lrint_close (z : Rat))
  have h1 := Rat.intCast_lt_intCast.1 (show ((lrint z - 1 : Int) : Rat) < z by push_cast; grind)
  have h2 := Rat.intCast_lt_intCast.1 (show (z : Rat) < ((lrint z + 1 : Int) : Rat) by push_cast; grind)
  omega

theorem xrint_int (k : Kind) (z : Int) : (xrint k z : Int) = max 0 (min z (typeMax k)) := by
  unfold xrint
  have e : min (max (z : Rat) 0) ((typeMax k : Nat) : Rat) = ((max 0 (min z (typeMax k)) : Int) : Rat) := by
    have h0 : (0 : Rat) ≤ ((typeMax k : Nat) : Rat) := by exact_mod_cast Nat.zero_le _
    rw [← Rat.intCast_natCast] at *
    generalize ((typeMax k : Nat) : Int) = M at *
    have hM : 0 ≤ M := Rat.intCast_le_intCast.1 (by simpa using h0)
    have e0 : ((0 : Int) : Rat) = 0 := rfl
    by_cases c1 : z ≤ 0
    · have := Rat.intCast_le_intCast.2 c1
      rw [show max 0 (min z M) = 0 by omega]
      grind
    · by_cases c2 : z ≤ M
      · have := Rat.intCast_le_intCast.2 c2
        have := Rat.intCast_le_intCast.2 (show 0 ≤ z by omega)
        rw [show max 0 (min z M) = z by omega]
        grind
      · have := Rat.intCast_le_intCast.2 (show M ≤ z by omega)
        have := Rat.intCast_le_intCast.2 (show 0 ≤ z by omega)
        rw [show max 0 (min z M) = M by omega]
        grind
  rw [e, lrint_int]
  omega

theorem rabs_int (z : Int) : rabs (z : Rat) = ((z.natAbs : Int) : Rat) := by
  unfold rabs
  have e0 : ((0 : Int) : Rat) = 0 := rfl
  by_cases c : z < 0
  · have := Rat.intCast_lt_intCast.2 c
    rw [if_pos (by grind), show (z.natAbs : Int) = -z by omega]
    push_cast
    rfl
  · have := Rat.intCast_le_intCast.2 (show 0 ≤ z by omega)
    rw [if_neg (by grind), show (z.natAbs : Int) = z by omega]

theorem convOut_ok (k : Kind) {t : Nat} (ht : t ≤ typeMax k) {d b : Rat} (hd : 1 / 2 ^ 127 ≤ rabs d) (saturate : Bool) {a : Int}
    (ha : a.natAbs ≤ 2 ^ 40) :
    ConvResult t saturate d b a (convOut F k (inverse F d) b saturate t a) := by
  have hinv : inverse F d = some (F.rnd (1 / d)) := by
    unfold inverse
    rw [if_pos]
    have h1 : rabs (1 / d) ≤ 2 ^ 127 := by
      have hd0 : d ≠ 0 := by
        rintro rfl
        rw [rabs_zero] at hd
        grind
      have h2 : rabs d * rabs (1 / d) = 1 := by
        rw [← rabs_mul, show d * (1 / d) = 1 by grind]
        rfl
      refine Rat.not_lt.1 fun hc => ?_
      have h3 : (1 : Rat) / 2 ^ 127 * rabs (1 / d) ≤ rabs d * rabs (1 / d) := Rat.mul_le_mul_of_nonneg_right hd (rabs_nonneg _)
      rw [h2] at h3
      generalize rabs (1 / d) = u at *
      grind
    have h2 := F.rnd_close (1 / d)
    have h3 := rabs_add (F.rnd (1 / d) - 1 / d) (1 / d)
    rw [show F.rnd (1 / d) - 1 / d + 1 / d = F.rnd (1 / d) by grind] at h3
    grind
  unfold convOut
  rw [hinv]
  dsimp only [limit]
  refine ⟨Nat.min_le_right _ _, ?_, ?_⟩
  · have h1 := xrint_near k (if saturate then F.muladd (F.rnd a) (F.rnd (1 / d)) b else rabs (F.muladd (F.rnd a) (F.rnd (1 / d)) b)) ht
    have h2 := scale_close F ha (d := d) (b := b)
    have h3 : rabs ((if saturate then F.muladd (F.rnd a) (F.rnd (1 / d)) b else rabs (F.muladd (F.rnd a) (F.rnd (1 / d)) b)) -
        scaled a d b saturate) ≤ rabs (F.muladd (F.rnd a) (F.rnd (1 / d)) b - ((a : Rat) / d + b)) := by
      unfold scaled
      cases saturate
      · exact rabs_sub_le _ _
      · exact Rat.le_refl
    generalize (if saturate then F.muladd (F.rnd a) (F.rnd (1 / d)) b else rabs (F.muladd (F.rnd a) (F.rnd (1 / d)) b)) = q at *
    have h4 := clamp_lip q (scaled a d b saturate) t
    have h5 := rabs_add (((min (xrint k q) t : Nat) : Rat) - max 0 (min q t)) (max 0 (min q t) - max 0 (min (scaled a d b saturate) t))
    rw [show ((min (xrint k q) t : Nat) : Rat) - max 0 (min q t) + (max 0 (min q t) - max 0 (min (scaled a d b saturate) t)) =
      ((min (xrint k q) t : Nat) : Rat) - max 0 (min (scaled a d b saturate) t) by grind] at h5
    grind
  · rintro z rfl rfl ha2 haz
    have e1 : F.rnd (1 / 1) = ((1 : Int) : Rat) := by
      rw [show (1 : Rat) / 1 = ((1 : Int) : Rat) by grind]
      exact F.rnd_int 1 (by decide)
    rw [e1, F.rnd_int a ha2, F.muladd_int a 1 z (by rw [Int.mul_one]; exact ha2) (by rw [Int.mul_one]; exact haz), Int.mul_one, rabs_int]
    cases saturate
    · have := xrint_int k ((a + z).natAbs : Int)
      simp only [Bool.false_eq_true, if_false]
      omega
    · have := xrint_int k (a + z)
      simp only [if_true]
      omega

/-! ## Arguments -/

theorem getBias_ok {arg : Option Nat} {b : Rat} (h : BiasIs F arg b) : getBias F arg = .ok b := by
  rcases h with ⟨rfl, rfl⟩ | ⟨v, rfl, e⟩
  · rfl
  · unfold getBias
    dsimp only
    rw [e]

theorem getBias_bad {arg : Option Nat} (h : ¬ Spec.Finite F arg) : ∃ m, getBias F arg = .err m := by
  unfold getBias
  cases arg with
  | none =>
    refine absurd ?_ h
    intro b hb
    cases hb
  | some v =>
    dsimp only
    cases e : single F v with
    | none => exact ⟨_, rfl⟩
    | some q =>
      refine absurd ?_ h
      intro b hb
      cases hb
      exact ⟨q, e⟩

theorem bias_of {arg : Option Nat} (h : Spec.Finite F arg) : ∃ b, BiasIs F arg b := by
  cases arg with
  | none => exact ⟨0, Or.inl ⟨rfl, rfl⟩⟩
  | some v =>
    obtain ⟨q, e⟩ := h v rfl
    exact ⟨q, Or.inr ⟨v, rfl, e⟩⟩

theorem getDivisor_ok {arg : Option Nat} {m : List Int} {d : Rat} (h : DivisorIs F arg m d) : getDivisor F arg m = .ok d := by
  unfold getDivisor
  rcases h with ⟨rfl | ⟨b, rfl, e⟩, rfl⟩ | ⟨b, rfl, e, hd⟩
  · rfl
  · dsimp only
    rw [e]
    dsimp only
    rw [if_pos rfl]
    rfl
  · dsimp only
    rw [e]
    dsimp only
    rw [if_neg hd]

theorem divisor_of {arg : Option Nat} (h : Spec.Finite F arg) (m : List Int) : ∃ d, DivisorIs F arg m d := by
  cases arg with
  | none => exact ⟨_, Or.inl ⟨Or.inl rfl, rfl⟩⟩
  | some v =>
    obtain ⟨q, e⟩ := h v rfl
    by_cases h0 : q = 0
    · exact ⟨_, Or.inl ⟨Or.inr ⟨v, rfl, by rw [e, h0]⟩, rfl⟩⟩
    · exact ⟨q, Or.inr ⟨v, rfl, e, h0⟩⟩

theorem getDivisor_bad {arg : Option Nat} (m : List Int) (h : ¬ Spec.Finite F arg) : ∃ e, getDivisor F arg m = .err e := by
  unfold getDivisor
  cases arg with
  | none =>
    refine absurd ?_ h
    intro b hb
    cases hb
  | some v =>
    dsimp only
    cases e : single F v with
    | none => exact ⟨_, rfl⟩
    | some q =>
      refine absurd ?_ h
      intro b hb
      cases hb
      exact ⟨q, e⟩

theorem getMode_ok {arg : Option String} {n : Nat} {mode : ConvMode} (h : ModeIs arg n mode) : getMode arg n = .ok mode := by
  unfold getMode
  rcases h with ⟨h1, h2, rfl⟩ | ⟨h1, h2, h3, h4⟩
  · rw [if_pos h1, if_neg (by omega)]
  · rcases h4 with ⟨rfl, rfl⟩ | ⟨rfl, rfl⟩ | ⟨rfl | rfl, rfl⟩ <;>
      rw [if_neg (by decide), if_pos (by decide), if_neg (by omega), if_neg (by omega)] <;> rfl

theorem getMode_bad {arg : Option String} {n : Nat} (h : ∀ mode, ¬ ModeIs arg n mode) : ∃ m, getMode arg n = .err m := by
  unfold getMode
  by_cases c1 : arg = none ∨ arg = some "s"
  · rw [if_pos c1]
    by_cases c2 : n ≠ 9 ∧ n ≠ 25 ∧ n ≠ 49 ∧ n ≠ 81 ∧ n ≠ 121
    · rw [if_pos c2]
      exact ⟨_, rfl⟩
    · exact absurd (Or.inl ⟨c1, by omega, rfl⟩) (h .square)
  · rw [if_neg c1]
    by_cases c2 : arg = some "h" ∨ arg = some "v" ∨ arg = some "hv" ∨ arg = some "vh"
    · rw [if_pos c2]
      by_cases c3 : n < 3 ∨ n > 25
      · rw [if_pos c3]
        exact ⟨_, rfl⟩
      · rw [if_neg c3]
        by_cases c4 : n % 2 = 0
        · rw [if_pos c4]
          exact ⟨_, rfl⟩
        · exfalso
          rcases c2 with c | c | c | c
          · exact h .horizontal (Or.inr ⟨by omega, by omega, by omega, Or.inl ⟨c, rfl⟩⟩)
          · exact h .vertical (Or.inr ⟨by omega, by omega, by omega, Or.inr (Or.inl ⟨c, rfl⟩)⟩)
          · exact h .separable (Or.inr ⟨by omega, by omega, by omega, Or.inr (Or.inr ⟨Or.inl c, rfl⟩)⟩)
          · exact h .separable (Or.inr ⟨by omega, by omega, by omega, Or.inr (Or.inr ⟨Or.inr c, rfl⟩)⟩)
    · rw [if_neg c2]
      exact ⟨_, rfl⟩

theorem round_pos {q f : Rat} (h0 : 0 ≤ q) (h1 : f ≤ q + 1 / 2) (h2 : q + 1 / 2 < f + 1) :
    rabs (q - f) ≤ 1 / 2 ∧ (rabs (q - f) = 1 / 2 → rabs q ≤ rabs f) := by
  have hu : (1 : Rat) / 2 + 1 / 2 = 1 := by grind
  unfold rabs
  generalize (1 : Rat) / 2 = u at *
  rw [if_neg (show ¬ q < 0 by grind)]
  refine ⟨by split <;> grind, ?_⟩
  split <;> split <;> intro e <;> grind

theorem round_neg {q f : Rat} (h0 : q < 0) (h1 : f ≤ -q + 1 / 2) (h2 : -q + 1 / 2 < f + 1) :
    rabs (q - -f) ≤ 1 / 2 ∧ (rabs (q - -f) = 1 / 2 → rabs q ≤ rabs (-f)) := by
  have hu : (1 : Rat) / 2 + 1 / 2 = 1 := by grind
  unfold rabs
  generalize (1 : Rat) / 2 = u at *
  rw [if_pos h0]
  refine ⟨by split <;> grind, ?_⟩
  split <;> split <;> intro e <;> grind

theorem roundAway_spec (q : Rat) : RoundsTo q (roundAway q) := by
  unfold RoundsTo roundAway
  by_cases c : 0 ≤ q
  · rw [if_pos c]
    have h2 := Rat.lt_floor_add_one (q + 1 / 2)
    push_cast at h2
    exact round_pos c (Rat.floor_le _) h2
  · rw [if_neg c]
    have h2 := Rat.lt_floor_add_one (-q + 1 / 2)
    push_cast at h2 ⊢
    exact round_neg (Rat.not_le.1 c) (Rat.floor_le _) h2

theorem roundAway_lt (q : Rat) : (-1023 ≤ roundAway q ∧ roundAway q ≤ 1023) ↔ rabs q < 1023 + 1 / 2 := by
  unfold roundAway rabs
  have e : ((1024 : Int) : Rat) = 1024 := rfl
  have e0 : ((0 : Int) : Rat) = 0 := rfl
  by_cases c : 0 ≤ q
  · rw [if_pos c, if_neg (by grind)]
    have h1 := Rat.floor_lt_iff (x := 1024) (a := q + 1 / 2)
    have h2 : 0 ≤ (q + 1 / 2).floor := Rat.le_floor_iff.2 (by grind)
    constructor
    · intro h
      have := h1.1 (by omega)
      grind
    · intro h
      have := h1.2 (by grind)
      omega
  · rw [if_neg c, if_pos (by grind)]
    have h1 := Rat.floor_lt_iff (x := 1024) (a := -q + 1 / 2)
    have h2 : 0 ≤ (-q + 1 / 2).floor := Rat.le_floor_iff.2 (by grind)
    constructor
    · intro h
      have := h1.1 (by omega)
      grind
    · intro h
      have := h1.2 (by grind)
      omega

theorem getCoeffs_ok {matrix : List Nat} (h : ∀ b ∈ matrix, ∃ q, F.value b = some q ∧ rabs q < 1023 + 1 / 2) :
    ∃ m, getCoeffs F matrix = .ok m ∧ CoeffsAre F matrix m := by
  induction matrix with
  | nil => exact ⟨[], rfl, trivial⟩
  | cons b t ih =>
    obtain ⟨q, e, hq⟩ := h b List.mem_cons_self
    obtain ⟨m, e', hm⟩ := ih fun b hb => h b (List.mem_cons_of_mem _ hb)
    have hr := (roundAway_lt q).2 hq
    refine ⟨roundAway q :: m, ?_, ⟨q, e, roundAway_spec q, hr⟩, hm⟩
    unfold getCoeffs
    rw [e]
    dsimp only
    rw [if_neg (by omega), e', Res.bind_ok]

theorem getCoeffs_bad {matrix : List Nat} (h : ¬ ∀ b ∈ matrix, ∃ q, F.value b = some q ∧ rabs q < 1023 + 1 / 2) :
    ∃ m, getCoeffs F matrix = .err m := by
  induction matrix with
  | nil =>
    refine absurd ?_ h
    intro b hb
    cases hb
  | cons b t ih =>
    unfold getCoeffs
    cases e : F.value b with
    | none => exact ⟨_, rfl⟩
    | some q =>
      dsimp only
      by_cases hr : -1023 ≤ roundAway q ∧ roundAway q ≤ 1023
      · rw [if_neg (by omega)]
        obtain ⟨m, e'⟩ := ih fun ht => h fun b' hb' => by
          rcases List.mem_cons.1 hb' with rfl | hb'
          · exact ⟨q, e, (roundAway_lt q).1 hr⟩
          · exact ht b' hb'
        rw [e']
        exact ⟨m, rfl⟩
      · rw [if_pos (by omega)]
        exact ⟨_, rfl⟩

theorem coeffs_facts {matrix : List Nat} {m : List Int} (h : CoeffsAre F matrix m) :
    m.length = matrix.length ∧ ∀ c ∈ m, c.natAbs ≤ 1023 := by
  induction matrix generalizing m with
  | nil =>
    cases m with
    | nil => exact ⟨rfl, fun c hc => by cases hc⟩
    | cons c l => exact absurd h id
  | cons b t ih =>
    cases m with
    | nil => exact absurd h id
    | cons c l =>
      obtain ⟨⟨q, _, _, h1, h2⟩, hl⟩ := h
      obtain ⟨i1, i2⟩ := ih hl
      refine ⟨by rw [List.length_cons, List.length_cons, i1], ?_⟩
      intro c' hc'
      rcases List.mem_cons.1 hc' with rfl | hc'
      · omega
      · exact i2 c' hc'

theorem checkCoeffs_ok {matrix : List Nat} (h : ∀ b ∈ matrix, ∃ q, F.value b = some q) : checkCoeffs F matrix = .ok [] := by
  induction matrix with
  | nil => rfl
  | cons b t ih =>
    obtain ⟨q, e⟩ := h b List.mem_cons_self
    unfold checkCoeffs
    rw [e]
    exact ih fun b hb => h b (List.mem_cons_of_mem _ hb)

theorem checkCoeffs_bad {matrix : List Nat} (h : ¬ ∀ b ∈ matrix, ∃ q, F.value b = some q) : ∃ m, checkCoeffs F matrix = .err m := by
  induction matrix with
  | nil =>
    refine absurd ?_ h
    intro b hb
    cases hb
  | cons b t ih =>
    unfold checkCoeffs
    cases e : F.value b with
    | none => exact ⟨_, rfl⟩
    | some q =>
      dsimp only
      exact ih fun ht => h fun b' hb' => by
        rcases List.mem_cons.1 hb' with rfl | hb'
        · exact ⟨q, e⟩
        · exact ht b' hb'

theorem checkDims_fits {mode : ConvMode} {n w h : Nat} :
    checkDims (radiusH mode n) (radiusV mode n) w h = none ↔ Spec.Fits mode n w h := by
  unfold checkDims Spec.Fits radiusH radiusV
  by_cases c : w < 4 ∨ h < 4
  · rw [if_pos c]
    constructor
    · intro h; cases h
    · intro h; omega
  · rw [if_neg c]
    cases mode <;> simp <;> (try split) <;> (try split) <;> (try simp) <;> omega

end VS.Generic
