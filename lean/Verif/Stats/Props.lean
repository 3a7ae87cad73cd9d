import Verif.Stats.Lemmas
import Verif.Pix.PropsField
import Verif.Pix.PropsShuffle

/-! # PlaneStats measures a plane -/

namespace VS.Stats
open VS VS.Format VS.Map VS.Map.Spec VS.Pix VS.Pix.Spec VS.Point VS.Point.Spec VS.Pixel VS.Pixel.Spec VS.Stats.Spec
open VS.Generic (not_workable dot gray8_44 gray8_work)

variable (F : SFloats)

/-! ## Reading -/

/-- The pairs of samples of one or two frames. -/
def pair (al : Nat) (f : Frm) (g : Option Frm) (p x y : Nat) : Nat × Nat :=
  (smp al f p x y, match g with | none => smp al f p x y | some g => smp al g p x y)

/-- A second frame that fits. -/
def Goes (al : Nat) (f : Frm) (g : Option Frm) : Prop :=
  ∀ s, g = some s → Valid al s ∧ s.fmt = f.fmt ∧ s.width = f.width ∧ s.height = f.height

theorem cells_ok {al : Nat} (ha : 0 < al) {f : Frm} (hv : Valid al f) {g : Option Frm} (hg : Goes al f g) {p : Nat} {b : Buf} {b2 : Option Buf}
    (hb : f.planes[p]? = some b) (h2 : plane? g p = .ok b2) {x y : Nat} (hx : x < f.w p) (hy : y < f.h p) :
    cells (bps f.fmt) (f.stride al p) (stride? al g p) b b2 x y = .ok (pair al f g p x y) := by
  unfold cells pair
  rw [rd_smp ha hv hb hx hy, Res.bind_ok]
  cases g with
  | none =>
    cases h2
    rfl
  | some s =>
    obtain ⟨vs, e1, e2, e3⟩ := hg s rfl
    obtain ⟨b3, e, h3⟩ := bind_eq_ok h2
    cases h3
    have hb3 : s.planes[p]? = some b3 := by
      unfold Frm.plane at e
      split at e
      · cases e
        assumption
      · cases e
    dsimp only [stride?]
    have := rd_smp ha vs hb3 (x := x) (y := y) (by rw [w_eq e1 e2]; exact hx) (by rw [h_eq e1 e3]; exact hy)
    rw [e1] at this
    rw [this, Res.bind_ok]

theorem plane_ok {al : Nat} {f : Frm} (hv : Valid al f) {p : Nat} (hp : (p : Int) < f.fmt.numPlanes) :
    ∃ b, f.planes[p]? = some b ∧ f.plane p = .ok b := by
  have hc := hv.count
  have hl : p < f.planes.length := by omega
  refine ⟨f.planes[p], List.getElem?_eq_getElem hl, ?_⟩
  unfold Frm.plane
  rw [List.getElem?_eq_getElem hl]

theorem second_ok {al : Nat} {f : Frm} {g : Option Frm} (hg : Goes al f g) {p : Nat} (hp : (p : Int) < f.fmt.numPlanes) :
    ∃ b, plane? g p = .ok b := by
  cases g with
  | none => exact ⟨none, rfl⟩
  | some s =>
    obtain ⟨vs, e1, _, _⟩ := hg s rfl
    obtain ⟨b, _, e⟩ := plane_ok vs (by rw [e1]; exact hp)
    refine ⟨some b, ?_⟩
    unfold plane?
    dsimp only
    rw [e, Res.bind_ok]

/-! ## Integers -/

/-- The greatest differences of planes; all 0 for one frame. -/
def gaps (al : Nat) (f : Frm) (g : Option Frm) (p : Nat) : List Nat := each f p fun x y => gap (pair al f g p x y)

theorem ints_ok {al : Nat} (ha : 0 < al) {f : Frm} (hv : Valid al f) {g : Option Frm} (hg : Goes al f g) {p : Nat} {b : Buf} {b2 : Option Buf}
    (hb : f.planes[p]? = some b) (h2 : plane? g p = .ok b2) {k : Kind} (hk : (k = .byte ∧ bps f.fmt = 1) ∨ (k = .word ∧ bps f.fmt = 2))
    (hkb : k.bytes = bps f.fmt) (hs : f.w p * f.h p < 2 ^ 47) :
    ∃ s, scan (cells k.bytes (f.stride al p) (stride? al g p) b b2) Ints.add (f.w p) (f.h p) (first k) = .ok s ∧
      Least (samples al f p) s.min ∧ Greatest (samples al f p) s.max ∧ s.acc = (samples al f p).sum ∧ s.diff = (gaps al f g p).sum := by
  have h16 : ∀ (f' : Frm) x y, f'.fmt = f.fmt → smp al f' p x y < 2 ^ 16 := by
    intro f' x y e
    have := smp_lt (al := al) f' p x y
    rw [e] at this
    rcases hk with ⟨_, h⟩ | ⟨_, h⟩ <;> rw [h] at this <;> omega
  rw [hkb]
  refine ⟨_, scan_ok (fun x y hx hy => cells_ok ha hv hg hb h2 hx hy) (first k), ?_⟩
  have hl := each_length f p (pair al f g p)
  obtain ⟨_, hw, hh, _⟩ := row_plane hv p
  have e1 : (each f p (pair al f g p)).map (·.1) = samples al f p := map_each f p _ _
  have e2 : (each f p (pair al f g p)).map gap = gaps al f g p := map_each f p _ _
  obtain ⟨a1, a2⟩ := fold_ints (each f p (pair al f g p)) (first k) (show 0 < 2 ^ 64 by decide) (show 0 < 2 ^ 64 by decide)
  obtain ⟨m1, m2, m3⟩ := fold_min (each f p (pair al f g p)) (first k)
  obtain ⟨x1, x2, x3⟩ := fold_max (each f p (pair al f g p)) (first k)
  rw [e1] at a1 m1 m3 x1 x3
  rw [e2] at a2
  have z : smp al f p 0 0 ∈ samples al f p := mem_each.2 ⟨0, 0, hw, hh, rfl⟩
  have f1 : smp al f p 0 0 ≤ (first k).min := by
    have h1 := smp_lt (al := al) f p 0 0
    have h2 := h16 f 0 0 rfl
    unfold first
    rcases hk with ⟨h, h'⟩ | ⟨h, h'⟩
    · rw [if_pos h]
      rw [h'] at h1
      dsimp only
      omega
    · rw [if_neg (by rw [h]; decide)]
      dsimp only
      omega
  have len1 : (samples al f p).length = f.h p * f.w p := each_length f p _
  have len2 : (gaps al f g p).length = f.h p * f.w p := each_length f p _
  have big : f.h p * f.w p * 2 ^ 16 < 2 ^ 63 := by
    rw [Nat.mul_comm (f.h p)]
    omega
  have s1 : (samples al f p).sum < 2 ^ 64 := by
    have := sum_le (l := samples al f p) (t := 2 ^ 16) (fun v hv => by
      obtain ⟨x, y, _, _, e⟩ := mem_each.1 hv
      have := h16 f x y rfl
      omega)
    rw [len1] at this
    omega
  have s2 : (gaps al f g p).sum < 2 ^ 64 := by
    have := sum_le (l := gaps al f g p) (t := 2 ^ 16) (fun v hv => by
      obtain ⟨x, y, _, _, e⟩ := mem_each.1 hv
      have := h16 f x y rfl
      unfold gap pair at e
      cases g with
      | none => dsimp only at e; omega
      | some s =>
        have := h16 s x y (hg s rfl).2.1
        dsimp only at e
        omega)
    rw [len2] at this
    omega
  refine ⟨⟨?_, m3⟩, ⟨?_, x3⟩, ?_, ?_⟩
  · rcases m1 with m1 | m1
    · have := m3 _ z
      rw [show (List.foldl (fun s c => s.add c.1 c.2) (first k) (each f p (pair al f g p))).min = smp al f p 0 0 by omega]
      exact z
    · exact m1
  · rcases x1 with x1 | x1
    · have := x3 _ z
      have : (first k).max = 0 := rfl
      rw [show (List.foldl (fun s c => s.add c.1 c.2) (first k) (each f p (pair al f g p))).max = smp al f p 0 0 by omega]
      exact z
    · exact x1
  · rw [a1]
    show (0 + _) % _ = _
    rw [Nat.zero_add, Nat.mod_eq_of_lt s1]
  · rw [a2]
    show (0 + _) % _ = _
    rw [Nat.zero_add, Nat.mod_eq_of_lt s2]

/-! ## Properties -/

/-- The values for integers. -/
def intList (P : String) (lo hi : Nat) (q r : Rat) (two : Bool) : List (Key × Entry) :=
  [(P ++ "Min", (.int, [.int lo])), (P ++ "Max", (.int, [.int hi])), (P ++ "Average", (.float, [.float (F.bits q)]))] ++
    if two then [(P ++ "Diff", (.float, [.float (F.bits r)]))] else []

/-- Properties set one after the other. -/
def setAll (d : Dict) (l : List (Key × Entry)) : Dict := l.foldl (fun d e => set d e.1 e.2) d

theorem set_ok {d : Dict} {k : Key} {e : Entry} (h : KeyOk k = true) : set d k e = d.put k (some e) := by
  unfold set
  rw [keyOk_eq, if_pos h]

theorem set_bad {d : Dict} {k : Key} {e : Entry} (h : ¬ KeyOk k = true) : set d k e = d := by
  unfold set
  rw [keyOk_eq, if_neg h]

theorem set_err (d : Dict) (k : Key) (e : Entry) : (set d k e).err = d.err := by
  unfold set
  split <;> rfl

theorem setAll_spec : ∀ (l : List (Key × Entry)) (d : Dict), (∀ e ∈ l, KeyOk e.1 = true) → (l.map (·.1)).Nodup →
    (setAll d l).err = d.err ∧ (∀ e ∈ l, (setAll d l).get e.1 = some e.2) ∧ ∀ k, (∀ e ∈ l, k ≠ e.1) → (setAll d l).get k = d.get k := by
  intro l
  induction l with
  | nil => intro d _ _; exact ⟨rfl, (fun e he => by cases he), fun k _ => rfl⟩
  | cons a t ih =>
    intro d hk hn
    rw [List.map_cons, List.nodup_cons] at hn
    obtain ⟨i1, i2, i3⟩ := ih (set d a.1 a.2) (fun e he => hk e (List.mem_cons_of_mem _ he)) hn.2
    have e : setAll d (a :: t) = setAll (set d a.1 a.2) t := rfl
    rw [e]
    refine ⟨by rw [i1, set_err], ?_, ?_⟩
    · intro b hb
      rcases List.mem_cons.1 hb with rfl | hb
      · rw [i3 b.1 (fun e he h => hn.1 (List.mem_map.2 ⟨e, he, h.symm⟩)), set_ok (hk b List.mem_cons_self), get_self]
      · exact i2 b hb
    · intro k hk'
      rw [i3 k (fun e he => hk' e (List.mem_cons_of_mem _ he)), set_ok (hk a List.mem_cons_self),
        get_other _ _ (hk' a List.mem_cons_self)]

theorem setAll_bad : ∀ (l : List (Key × Entry)) (d : Dict), (∀ e ∈ l, ¬ KeyOk e.1 = true) → setAll d l = d := by
  intro l
  induction l with
  | nil => intro d _; rfl
  | cons a t ih =>
    intro d hk
    have e : setAll d (a :: t) = setAll (set d a.1 a.2) t := rfl
    rw [e, ih _ (fun e he => hk e (List.mem_cons_of_mem _ he)), set_bad (hk a List.mem_cons_self)]

/-- Lists of properties with the four names. -/
def Four (P : String) (l : List (Key × Entry)) : Prop :=
  l.map (·.1) = [P ++ "Min", P ++ "Max", P ++ "Average"] ∨ l.map (·.1) = [P ++ "Min", P ++ "Max", P ++ "Average", P ++ "Diff"]

theorem four_keys {P : String} {l : List (Key × Entry)} (h : Four P l) : (∀ e ∈ l, (KeyOk e.1 = true ↔ PrefixOk P)) ∧ (l.map (·.1)).Nodup := by
  obtain ⟨k1, k2, k3, k4⟩ := key_names P
  constructor
  · intro e he
    have : e.1 ∈ l.map (·.1) := List.mem_map.2 ⟨e, he, rfl⟩
    rcases h with h | h <;> rw [h] at this <;> simp only [List.mem_cons, List.not_mem_nil, or_false] at this
    · rcases this with h | h | h <;> rw [h] <;> assumption
    · rcases this with h | h | h | h <;> rw [h] <;> assumption
  · have d1 := append_ne P (show "Min" ≠ "Max" by decide)
    have d2 := append_ne P (show "Min" ≠ "Average" by decide)
    have d3 := append_ne P (show "Min" ≠ "Diff" by decide)
    have d4 := append_ne P (show "Max" ≠ "Average" by decide)
    have d5 := append_ne P (show "Max" ≠ "Diff" by decide)
    have d6 := append_ne P (show "Average" ≠ "Diff" by decide)
    rcases h with h | h <;> rw [h] <;> simp [d1, d2, d3, d4, d5, d6]

theorem only_of {f : Frm} {P : String} {l : List (Key × Entry)} (h : Four P l) (hp : PrefixOk P) :
    OnlyProps f { f with props := setAll f.props l } l := by
  obtain ⟨h1, h2⟩ := four_keys h
  obtain ⟨i1, i2, i3⟩ := setAll_spec l f.props (fun e he => (h1 e he).2 hp) h2
  exact ⟨rfl, rfl, rfl, rfl, i1, i2, i3⟩

theorem none_of {f : Frm} {P : String} {l : List (Key × Entry)} (h : Four P l) (hp : ¬ PrefixOk P) :
    { f with props := setAll f.props l } = f := by
  obtain ⟨h1, _⟩ := four_keys h
  rw [setAll_bad l f.props (fun e he hk => hp ((h1 e he).1 hk))]

theorem intProps_ok (prop : Option String) {bits w h : Nat} (hb : bits ≤ 16) (hs : w * h < 2 ^ 47) (two : Bool) (s : Ints) (d : Dict) :
    intProps F (names prop) bits w h two s d = .ok (setAll d (intList F (prop.getD "PlaneStats") s.min s.max
      (quotient F s.acc (w * h * (2 ^ bits - 1))) (quotient F s.diff (w * h * (2 ^ bits - 1))) two)) := by
  have h1 : 2 ^ bits ≤ 2 ^ 16 := Nat.pow_le_pow_right (by decide) hb
  have h2 : w * h * (2 ^ bits - 1) ≤ w * h * 2 ^ 16 := Nat.mul_le_mul_left _ (by omega)
  unfold intProps mul64
  rw [if_pos (by omega), Res.bind_ok, if_pos (by omega), Res.bind_ok]
  cases two <;> rfl

theorem intList_four (P : String) (lo hi : Nat) (q r : Rat) (two : Bool) : Four P (intList F P lo hi q r two) := by
  cases two
  · exact Or.inl rfl
  · exact Or.inr rfl

theorem stats_int {al : Nat} (ha : 0 < al) {f : Frm} (hv : Valid al f) (hw : Workable f.fmt) (ht : f.fmt.sampleType = stInteger) {g : Option Frm}
    (hg : Goes al f g) {p : Nat} (hp : (p : Int) < f.fmt.numPlanes) (hs : f.w p * f.h p < 2 ^ 47) (prop : Option String) :
    ∃ b b2 k lo hi q r, f.plane p = .ok b ∧ plane? g p = .ok b2 ∧ pixKind f.fmt = some k ∧
      props F al (names prop) p f g k b b2 = .ok (setAll f.props (intList F (prop.getD "PlaneStats") lo hi q r g.isSome)) ∧
      Least (samples al f p) lo ∧ Greatest (samples al f p) hi ∧ Mean (samples al f p) (2 ^ f.fmt.bitsPerSample.toNat - 1) q ∧
      Mean (gaps al f g p) (2 ^ f.fmt.bitsPerSample.toNat - 1) r := by
  obtain ⟨b, hb, eb⟩ := plane_ok hv hp
  obtain ⟨b2, h2⟩ := second_ok hg hp
  obtain ⟨k, hk, hkb, hko⟩ := pixKind_ok hv.fmt hw
  have d1 := small_depth hv.fmt hw ht
  have d2 := hw.2.1 ht
  have hk2 : (k = .byte ∧ bps f.fmt = 1) ∨ (k = .word ∧ bps f.fmt = 2) := by
    rcases (int_kind hko ht).2 with ⟨h1, h2, _⟩ | h
    · exact Or.inl ⟨h1, h2⟩
    · exact Or.inr h
  obtain ⟨s, e, s1, s2, s3, s4⟩ := ints_ok ha hv hg hb h2 hk2 hkb hs
  obtain ⟨_, hw0, hh0, _⟩ := row_plane hv p
  refine ⟨b, b2, k, s.min, s.max, quotient F s.acc (f.w p * f.h p * (2 ^ f.fmt.bitsPerSample.toNat - 1)),
    quotient F s.diff (f.w p * f.h p * (2 ^ f.fmt.bitsPerSample.toNat - 1)), eb, h2, hk, ?_, s1, s2, ?_, ?_⟩
  · have := intProps_ok F prop (bits := f.fmt.bitsPerSample.toNat) (by omega) hs g.isSome s f.props
    rcases hk2 with ⟨rfl, _⟩ | ⟨rfl, _⟩
    · unfold props
      dsimp only
      rw [e, Res.bind_ok, this]
    · unfold props
      dsimp only
      rw [e, Res.bind_ok, this]
  · have len : (samples al f p).length = f.h p * f.w p := each_length f p _
    have b1 : 2 ^ 8 ≤ 2 ^ f.fmt.bitsPerSample.toNat := Nat.pow_le_pow_right (by decide) (by omega)
    have b2 : 2 ^ f.fmt.bitsPerSample.toNat ≤ 2 ^ 16 := Nat.pow_le_pow_right (by decide) (by omega)
    have b3 : f.w p * f.h p * (2 ^ f.fmt.bitsPerSample.toNat - 1) ≤ f.w p * f.h p * 2 ^ 16 := Nat.mul_le_mul_left _ (by omega)
    have := mean_ok F (l := samples al f p) (t := 2 ^ f.fmt.bitsPerSample.toNat - 1) (by rw [len]; exact Nat.mul_pos hh0 hw0) (by omega)
      (by rw [len, Nat.mul_comm (f.h p)]; omega)
    rw [len, Nat.mul_comm (f.h p)] at this
    rw [s3]
    exact this
  · have len : (gaps al f g p).length = f.h p * f.w p := each_length f p _
    have b1 : 2 ^ 8 ≤ 2 ^ f.fmt.bitsPerSample.toNat := Nat.pow_le_pow_right (by decide) (by omega)
    have b2 : 2 ^ f.fmt.bitsPerSample.toNat ≤ 2 ^ 16 := Nat.pow_le_pow_right (by decide) (by omega)
    have b3 : f.w p * f.h p * (2 ^ f.fmt.bitsPerSample.toNat - 1) ≤ f.w p * f.h p * 2 ^ 16 := Nat.mul_le_mul_left _ (by omega)
    have := mean_ok F (l := gaps al f g p) (t := 2 ^ f.fmt.bitsPerSample.toNat - 1) (by rw [len]; exact Nat.mul_pos hh0 hw0) (by omega)
      (by rw [len, Nat.mul_comm (f.h p)]; omega)
    rw [len, Nat.mul_comm (f.h p)] at this
    rw [s4]
    exact this

/-! ## Floats -/

/-- The values for floats. -/
def floatList (P : String) (k : Kind) (l : List (Nat × Nat)) (n : Nat) (two : Bool) : List (Key × Entry) :=
  [(P ++ "Min", (.float, [.float (F.fmin k (l.map (·.1)))])), (P ++ "Max", (.float, [.float (F.fmax k (l.map (·.1)))])),
    (P ++ "Average", (.float, [.float (F.favg k (l.map (·.1)) n)]))] ++
    if two then [(P ++ "Diff", (.float, [.float (F.fdiff k l n)]))] else []

theorem floatList_four (P : String) (k : Kind) (l : List (Nat × Nat)) (n : Nat) (two : Bool) : Four P (floatList F P k l n two) := by
  cases two
  · exact Or.inl rfl
  · exact Or.inr rfl

theorem foldl_push {α : Type} : ∀ (l a : List α), l.foldl (fun s c => s ++ [c]) a = a ++ l := by
  intro l
  induction l with
  | nil => intro a; simp
  | cons b t ih => intro a; rw [List.foldl_cons, ih]; simp

theorem stats_float {al : Nat} (ha : 0 < al) {f : Frm} (hv : Valid al f) (hw : Workable f.fmt) (ht : f.fmt.sampleType = stFloat) {g : Option Frm}
    (hg : Goes al f g) {p : Nat} (hp : (p : Int) < f.fmt.numPlanes) (prop : Option String) :
    ∃ b b2, f.plane p = .ok b ∧ plane? g p = .ok b2 ∧ pixKind f.fmt = some (floatKind f.fmt) ∧
      props F al (names prop) p f g (floatKind f.fmt) b b2 = .ok (setAll f.props (floatList F (prop.getD "PlaneStats") (floatKind f.fmt)
        (each f p (pair al f g p)) (f.w p * f.h p) g.isSome)) := by
  obtain ⟨b, hb, eb⟩ := plane_ok hv hp
  obtain ⟨b2, h2⟩ := second_ok hg hp
  obtain ⟨k, hk, hkb, hko⟩ := pixKind_ok hv.fmt hw
  obtain ⟨hkf, hk2⟩ := float_kind hko ht
  subst hkf
  refine ⟨b, b2, eb, h2, hk, ?_⟩
  obtain ⟨r1, hw0, hh0, r2⟩ := row_plane hv p
  have hsz : f.w p * f.h p < 2 ^ 63 := by
    have b1 := (fmtOk hv.fmt hv.known).bytes
    have : f.w p ≤ 2 ^ 31 := by
      unfold INT_MAX at r1
      rcases b1 with h | h | h <;> rw [h] at r1 <;> omega
    have b3 : f.h p ≤ 2 ^ 31 := by
      unfold INT_MAX at r2
      omega
    have := Nat.mul_le_mul this b3
    omega
  have e : scan (cells (floatKind f.fmt).bytes (f.stride al p) (stride? al g p) b b2) (fun l v t => l ++ [(v, t)]) (f.w p) (f.h p) [] =
      .ok (each f p (pair al f g p)) := by
    rw [hkb, scan_ok (fun x y hx hy => cells_ok ha hv hg hb h2 hx hy)]
    have : (fun (s : List (Nat × Nat)) (c : Nat × Nat) => s ++ [(c.1, c.2)]) = fun s c => s ++ [c] := rfl
    rw [this, foldl_push]
    rfl
  have e2 : floatProps F (names prop) (floatKind f.fmt) (f.w p) (f.h p) g.isSome (each f p (pair al f g p)) f.props =
      .ok (setAll f.props (floatList F (prop.getD "PlaneStats") (floatKind f.fmt) (each f p (pair al f g p)) (f.w p * f.h p) g.isSome)) := by
    unfold floatProps mul64
    rw [if_pos hsz, Res.bind_ok]
    cases g <;> rfl
  unfold props
  rcases hk2 with h | h
  · rw [h] at e e2 ⊢
    dsimp only
    rw [e, Res.bind_ok, e2]
  · rw [h] at e e2 ⊢
    dsimp only
    rw [e, Res.bind_ok, e2]

/-! ## Frames -/

theorem frame_one {al : Nat} {c : PClip} (hv : ValidClip al c) {n : Nat} {f : Frm} (hf : at? c n = some f) {p : Nat} {nm : Names}
    {b : Buf} {k : Kind} {d : Dict} (eb : f.plane p = .ok b) (ek : pixKind f.fmt = some k) (ed : props F al nm p f none k b none = .ok d) (junk : Junk) :
    (Pix.Created.filter (statsFilter F al c.vi false p nm)).frame [c] n junk = .ok { f with props := d } := by
  refine frame_ok ?_ (fun hc => hv.fmt f (at_mem hf) hc) (fun hc => hv.size f (at_mem hf) hc)
  show (getFrameFilter [c] [(0, n)] 0 n >>= fun s1 => _) = _
  rw [get_ok (i := 0) rfl hv (by simp) hf, Res.bind_ok]
  show (f.plane p >>= fun b => _) = _
  rw [eb, Res.bind_ok]
  show (match pixKind f.fmt with | none => Res.ub | some k => _) = _
  rw [ek]
  dsimp only
  rw [ed, Res.bind_ok]

theorem frame_two {al : Nat} {c c2 : PClip} (hv : ValidClip al c) (hv2 : ValidClip al c2) {n : Nat} {f f2 : Frm} (hf : at? c n = some f)
    (hf2 : at? c2 n = some f2) {p : Nat} {nm : Names} {b : Buf} {b2 : Option Buf} {k : Kind} {d : Dict} (eb : f.plane p = .ok b)
    (eb2 : plane? (some f2) p = .ok b2) (ek : pixKind f.fmt = some k) (ed : props F al nm p f (some f2) k b b2 = .ok d) (junk : Junk) :
    (Pix.Created.filter (statsFilter F al c.vi true p nm)).frame [c, c2] n junk = .ok { f with props := d } := by
  refine frame_ok ?_ (fun hc => hv.fmt f (at_mem hf) hc) (fun hc => hv.size f (at_mem hf) hc)
  show (getFrameFilter [c, c2] [(0, n), (1, n)] 0 n >>= fun s1 => _) = _
  rw [get_ok (i := 0) rfl hv (by simp) hf, Res.bind_ok]
  show ((getFrameFilter [c, c2] [(0, n), (1, n)] 1 n >>= fun f => _) >>= fun s2 => _) = _
  rw [get_ok (i := 1) rfl hv2 (by simp) hf2, Res.bind_ok, Res.bind_ok, eb, Res.bind_ok, eb2, Res.bind_ok, ek]
  dsimp only
  rw [ed, Res.bind_ok]

theorem create_one {al : Nat} {c : PClip} (hv : ValidClip al c) (hw : Workable c.vi.format) {plane : Int} (h0 : 0 ≤ plane)
    (h1 : plane < c.vi.format.numPlanes) (prop : Option String) :
    statsCreate F al c.vi none plane prop = .ok (.filter (statsFilter F al c.vi false plane.toNat (names prop))) := by
  unfold statsCreate
  rw [(workable_iff _).2 hw, if_neg (by decide), if_neg (by omega)]
  exact create_ok hv.info

theorem create_two {al : Nat} {c c2 : PClip} (hv : ValidClip al c) (hv2 : ValidClip al c2) (hw : Workable c.vi.format) (hc : Constant c.vi)
    (hfit : Fit c.vi c2.vi) {plane : Int} (h0 : 0 ≤ plane) (h1 : plane < c.vi.format.numPlanes) (prop : Option String) :
    statsCreate F al c.vi (some c2.vi) plane prop = .ok (.filter (statsFilter F al c.vi true plane.toNat (names prop))) := by
  have hc2 : Constant c2.vi := by
    obtain ⟨e1, e2, e3⟩ := hfit
    unfold Constant at *
    rw [← e1, ← e2, ← e3]
    exact hc
  unfold statsCreate
  rw [(workable_iff _).2 hw, if_neg (by decide), if_neg (by omega)]
  dsimp only
  rw [(fit_iff hv hv2 hc).2 hfit, (constant_iff _).2 hc2, if_neg (by decide)]
  exact create_ok hv.info

theorem goes_none (al : Nat) (f : Frm) : Goes al f none := fun s h => by cases h

/-! ## Theorems -/

/-- With one clip the result has the frames of the clip, and three more properties: the smallest and the largest sample of the plane, and
the average of the samples, where the largest value of the format counts as 1. -/
theorem C82_stats {al : Nat} (hal : AlignOk al) {c : PClip} (hv : ValidClip al c) (hw : Workable c.vi.format)
    (ht : c.vi.format.sampleType = stInteger) {p : Nat} (hp : (p : Int) < c.vi.format.numPlanes) {prop : Option String} {P : String}
    (hP : P = prop.getD "PlaneStats") (hok : PrefixOk P) :
    ∃ C, statsCreate F al c.vi none p prop = .ok C ∧ outInfo C [c] = some c.vi ∧
      ∀ n f, at? c n = some f → f.w p * f.h p < 2 ^ 47 → ∀ junk, ∃ g, ∃ lo hi : Nat, ∃ q, C.frame [c] n junk = .ok g ∧
        OnlyProps f g [(P ++ "Min", (.int, [.int lo])), (P ++ "Max", (.int, [.int hi])), (P ++ "Average", (.float, [.float (F.bits q)]))] ∧
        Least (samples al f p) lo ∧ Greatest (samples al f p) hi ∧ Mean (samples al f p) (2 ^ c.vi.format.bitsPerSample.toNat - 1) q := by
  subst hP
  refine ⟨_, create_one F hv hw (plane := p) (by omega) hp prop, rfl, ?_⟩
  intro n f hf hs junk
  have hfm := hv.fmt f (at_mem hf) hw.1
  rw [← hfm] at hw ht hp ⊢
  obtain ⟨b, b2, k, lo, hi, q, r, e1, e2, e3, e4, m1, m2, m3, _⟩ := stats_int F (align_pos hal) (hv.frames f (at_mem hf)) hw ht (goes_none al f)
    hp hs prop
  cases e2
  exact ⟨_, lo, hi, q, frame_one F hv hf e1 e3 e4 junk, only_of (intList_four F _ lo hi q r false) hok, m1, m2, m3⟩

/-- With two clips a fourth property has the average of the differences between the samples of both planes. -/
theorem C82_diff {al : Nat} (hal : AlignOk al) {c c2 : PClip} (hv : ValidClip al c) (hv2 : ValidClip al c2) (hw : Workable c.vi.format)
    (hc : Constant c.vi) (hfit : Fit c.vi c2.vi) (ht : c.vi.format.sampleType = stInteger) {p : Nat} (hp : (p : Int) < c.vi.format.numPlanes)
    {prop : Option String} {P : String} (hP : P = prop.getD "PlaneStats") (hok : PrefixOk P) :
    ∃ C, statsCreate F al c.vi (some c2.vi) p prop = .ok C ∧ outInfo C [c, c2] = some c.vi ∧
      ∀ n f f2, at? c n = some f → at? c2 n = some f2 → f.w p * f.h p < 2 ^ 47 → ∀ junk, ∃ g, ∃ lo hi : Nat, ∃ q r, C.frame [c, c2] n junk = .ok g ∧
        OnlyProps f g [(P ++ "Min", (.int, [.int lo])), (P ++ "Max", (.int, [.int hi])), (P ++ "Average", (.float, [.float (F.bits q)])),
          (P ++ "Diff", (.float, [.float (F.bits r)]))] ∧
        Least (samples al f p) lo ∧ Greatest (samples al f p) hi ∧ Mean (samples al f p) (2 ^ c.vi.format.bitsPerSample.toNat - 1) q ∧
        Mean (diffs al f f2 p) (2 ^ c.vi.format.bitsPerSample.toNat - 1) r ∧
        (r = 0 ↔ ∀ x y, x < f.w p → y < f.h p → smp al f p x y = smp al f2 p x y) := by
  subst hP
  refine ⟨_, create_two F hv hv2 hw hc hfit (plane := p) (by omega) hp prop, rfl, ?_⟩
  intro n f f2 hf hf2 hs junk
  have hfm := hv.fmt f (at_mem hf) hw.1
  have hgo : Goes al f (some f2) := by
    intro s e
    cases e
    exact ⟨hv2.frames f2 (at_mem hf2), fit_frame hv hv2 hc hfit (at_mem hf) (at_mem hf2)⟩
  rw [← hfm] at hw ht hp ⊢
  obtain ⟨b, b2, k, lo, hi, q, r, e1, e2, e3, e4, m1, m2, m3, m4⟩ := stats_int F (align_pos hal) (hv.frames f (at_mem hf)) hw ht hgo hp hs prop
  refine ⟨_, lo, hi, q, r, frame_two F hv hv2 hf hf2 e1 e2 e3 e4 junk, only_of (intList_four F _ lo hi q r true) hok, m1, m2, m3, m4, ?_⟩
  rw [m4.2.2.1]
  constructor
  · intro h x y hx hy
    have := h _ (mem_each.2 ⟨x, y, hx, hy, rfl⟩)
    unfold gap pair at this
    dsimp only at this
    omega
  · intro h v hv
    obtain ⟨x, y, hx, hy, e⟩ := mem_each.1 hv
    have := h x y hx hy
    unfold gap pair at e
    dsimp only at e
    omega

/-- The values of float clips depend on the samples of the plane alone. -/
theorem C82_float {al : Nat} (hal : AlignOk al) {c c2 : PClip} (hv : ValidClip al c) (hv2 : ValidClip al c2) (hw : Workable c.vi.format)
    (ht : c.vi.format.sampleType = stFloat) {p : Nat} (hp : (p : Int) < c.vi.format.numPlanes)
    {prop : Option String} {P : String} (hP : P = prop.getD "PlaneStats") (hok : PrefixOk P) :
    (∃ C, statsCreate F al c.vi none p prop = .ok C ∧ outInfo C [c] = some c.vi ∧
      ∀ n f, at? c n = some f → ∀ junk, ∃ g, C.frame [c] n junk = .ok g ∧
        OnlyProps f g [(P ++ "Min", (.float, [.float (F.fmin (floatKind f.fmt) (samples al f p))])),
          (P ++ "Max", (.float, [.float (F.fmax (floatKind f.fmt) (samples al f p))])),
          (P ++ "Average", (.float, [.float (F.favg (floatKind f.fmt) (samples al f p) (f.w p * f.h p))]))]) ∧
    (Constant c.vi → Fit c.vi c2.vi → ∃ C, statsCreate F al c.vi (some c2.vi) p prop = .ok C ∧ outInfo C [c, c2] = some c.vi ∧
      ∀ n f f2, at? c n = some f → at? c2 n = some f2 → ∀ junk, ∃ g, C.frame [c, c2] n junk = .ok g ∧
        OnlyProps f g [(P ++ "Min", (.float, [.float (F.fmin (floatKind f.fmt) (samples al f p))])),
          (P ++ "Max", (.float, [.float (F.fmax (floatKind f.fmt) (samples al f p))])),
          (P ++ "Average", (.float, [.float (F.favg (floatKind f.fmt) (samples al f p) (f.w p * f.h p))])),
          (P ++ "Diff", (.float, [.float (F.fdiff (floatKind f.fmt) (each f p fun x y => (smp al f p x y, smp al f2 p x y)) (f.w p * f.h p))]))]) := by
  subst hP
  constructor
  · refine ⟨_, create_one F hv hw (plane := p) (by omega) hp prop, rfl, ?_⟩
    intro n f hf junk
    have hfm := hv.fmt f (at_mem hf) hw.1
    rw [← hfm] at hw ht hp
    obtain ⟨b, b2, e1, e2, e3, e4⟩ := stats_float F (align_pos hal) (hv.frames f (at_mem hf)) hw ht (goes_none al f) hp prop
    cases e2
    refine ⟨_, frame_one F hv hf e1 e3 e4 junk, ?_⟩
    have := only_of (f := f) (floatList_four F (prop.getD "PlaneStats") (floatKind f.fmt) (each f p (pair al f none p)) (f.w p * f.h p) false) hok
    unfold floatList at this
    rw [map_each] at this
    unfold floatList
    rw [map_each]
    exact this
  · intro hc hfit
    refine ⟨_, create_two F hv hv2 hw hc hfit (plane := p) (by omega) hp prop, rfl, ?_⟩
    intro n f f2 hf hf2 junk
    have hgo : Goes al f (some f2) := by
      intro s e
      cases e
      exact ⟨hv2.frames f2 (at_mem hf2), fit_frame hv hv2 hc hfit (at_mem hf) (at_mem hf2)⟩
    have hfm := hv.fmt f (at_mem hf) hw.1
    rw [← hfm] at hw ht hp
    obtain ⟨b, b2, e1, e2, e3, e4⟩ := stats_float F (align_pos hal) (hv.frames f (at_mem hf)) hw ht hgo hp prop
    refine ⟨_, frame_two F hv hv2 hf hf2 e1 e2 e3 e4 junk, ?_⟩
    have := only_of (f := f) (floatList_four F (prop.getD "PlaneStats") (floatKind f.fmt) (each f p (pair al f (some f2) p)) (f.w p * f.h p) true) hok
    unfold floatList at this
    rw [map_each] at this
    unfold floatList
    rw [map_each]
    exact this

/-- Formats PlaneStats cannot work on, planes the format does not have and second clips of another format, of another size or of variable format
or size are refused. -/
theorem C82_refused {al : Nat} {c : PClip} (hv : ValidClip al c) {other : Option PClip} (hv2 : ∀ d, other = some d → ValidClip al d) {plane : Int}
    {prop : Option String} (h : ¬ Workable c.vi.format ∨ plane < 0 ∨ c.vi.format.numPlanes ≤ plane ∨ ∃ d, other = some d ∧ ¬ (Constant d.vi ∧ Fit c.vi d.vi)) :
    ∃ m, statsCreate F al c.vi (other.map (·.vi)) plane prop = .err m := by
  unfold statsCreate
  by_cases hw : ¬ Workable c.vi.format
  · rw [not_workable hw]
    exact ⟨_, rfl⟩
  have hw' := Classical.not_not.1 hw
  rw [(workable_iff _).2 hw', if_neg (by decide)]
  by_cases hp : plane < 0 ∨ plane ≥ c.vi.format.numPlanes
  · rw [if_pos hp]
    exact ⟨_, rfl⟩
  rw [if_neg hp]
  rcases h with h | h | h | ⟨d, rfl, h⟩
  · exact absurd h hw
  · exact absurd (Or.inl h) hp
  · exact absurd (Or.inr h) hp
  rw [Option.map_some]
  dsimp only
  refine ⟨_, if_pos ?_⟩
  by_cases hc : Constant d.vi
  case neg =>
    rw [not_constant hc]
    simp
  cases e : isSameVideoInfo c.vi d.vi with
  | false => rfl
  | true =>
    have hcc : Constant c.vi := by
      have := e
      unfold isSameVideoInfo at this
      rw [Bool.and_eq_true, decide_eq_true_iff] at this
      exact ⟨by have := hc.1; omega, by have := hc.2.1; omega, hw'.1⟩
    exact absurd ⟨hc, (fit_iff hv (hv2 d rfl) hcc).1 e⟩ h

/-- Names that are not valid are accepted, and the frames come without the properties. -/
theorem C82_name_refuted {al : Nat} (hal : AlignOk al) {c : PClip} (hv : ValidClip al c) (hw : Workable c.vi.format)
    (ht : c.vi.format.sampleType = stInteger) {p : Nat} (hp : (p : Int) < c.vi.format.numPlanes) {P : String} (hbad : ¬ PrefixOk P) :
    ∃ C, statsCreate F al c.vi none p (some P) = .ok C ∧
      ∀ n f, at? c n = some f → f.w p * f.h p < 2 ^ 47 → ∀ junk, C.frame [c] n junk = .ok f := by
  refine ⟨_, create_one F hv hw (plane := p) (by omega) hp (some P), ?_⟩
  intro n f hf hs junk
  have hfm := hv.fmt f (at_mem hf) hw.1
  rw [← hfm] at hw ht hp
  obtain ⟨b, b2, k, lo, hi, q, r, e1, e2, e3, e4, _⟩ := stats_int F (align_pos hal) (hv.frames f (at_mem hf)) hw ht (goes_none al f) hp hs (some P)
  cases e2
  exact (frame_one F hv hf e1 e3 e4 junk).trans (congrArg Res.ok (none_of (intList_four F P lo hi q r false) hbad))

/-! ## Examples -/

/-- Exact arithmetic. -/
def exS : SFloats :=
  { rnd := fun q => q
    rnd_close := fun q => by
      rw [Rat.sub_self, VS.Generic.rabs_zero]
      have := VS.Generic.rabs_nonneg q
      have h : (0 : Rat) ≤ 1 / 2 ^ 1075 := by decide +kernel
      generalize (1 : Rat) / 2 ^ 1075 = d at h
      generalize rabs q = r at this
      grind
    rnd_mono := fun _ _ h => h
    rnd_int := fun _ _ => rfl
    bits := fun q => (q * 2 ^ 20).floor.toNat
    fmin := fun _ l => l.length
    fmax := fun _ l => l.length
    favg := fun _ _ n => n
    fdiff := fun _ _ n => n }

/-- The clip with the black picture and one white point: the theorem holds for it, and the default name is fine. -/
example (junk : Junk) : ∃ C g, ∃ lo hi : Nat, ∃ q, statsCreate exS 32 (clip1 gray8 4 4 dot Dict.empty).vi none 0 none = .ok C ∧
    C.frame [clip1 gray8 4 4 dot Dict.empty] 0 junk = .ok g ∧ g.props.get "PlaneStatsMin" = some (.int, [.int lo]) ∧
    Least (samples 32 (mkFrame 32 gray8 4 4 dot Dict.empty) 0) lo ∧ Greatest (samples 32 (mkFrame 32 gray8 4 4 dot Dict.empty) 0) hi ∧
    Mean (samples 32 (mkFrame 32 gray8 4 4 dot Dict.empty) 0) 255 q := by
  obtain ⟨C, e, _, h⟩ := C82_stats exS (Or.inl rfl) (clip1_valid gray8_44 dot Dict.empty) gray8_work rfl (p := 0) (by decide) (prop := none)
    (P := "PlaneStats") rfl (Or.inr (by decide))
  obtain ⟨g, lo, hi, q, e2, ho, h1, h2, h3⟩ := h 0 _ (clip1_at gray8 4 4 dot Dict.empty 0) (by decide) junk
  exact ⟨C, g, lo, hi, q, e, e2, ho.2.2.2.2.2.1 ("PlaneStats" ++ "Min", (.int, [.int lo])) List.mem_cons_self, h1, h2, h3⟩

/-- Two clips. -/
example (junk : Junk) : ∃ C g, statsCreate exS 32 (clip1 gray8 4 4 dot Dict.empty).vi (some (clip1 gray8 4 4 (fun _ _ => 3) Dict.empty).vi) 0 (some "a") = .ok C ∧
    C.frame [clip1 gray8 4 4 dot Dict.empty, clip1 gray8 4 4 (fun _ _ => 3) Dict.empty] 0 junk = .ok g := by
  obtain ⟨C, e, _, h⟩ := C82_diff exS (Or.inl rfl) (clip1_valid gray8_44 dot Dict.empty) (clip1_valid gray8_44 (fun _ _ => 3) Dict.empty) gray8_work
    ⟨by decide, by decide, by decide⟩ ⟨rfl, rfl, rfl⟩ rfl (p := 0) (by decide) (prop := some "a") (P := "a") rfl (Or.inr (by decide))
  obtain ⟨g, lo, hi, q, r, e2, _⟩ := h 0 _ _ (clip1_at gray8 4 4 dot Dict.empty 0) (clip1_at gray8 4 4 _ Dict.empty 0) (by decide) junk
  exact ⟨C, g, e, e2⟩

/-- A name that is not valid, and names that are. -/
example : ¬ PrefixOk "a b" ∧ PrefixOk "" ∧ PrefixOk "_x9" := by
  refine ⟨?_, Or.inl rfl, Or.inr (by decide)⟩
  rintro (h | h)
  · exact absurd h (by decide)
  · exact absurd h (by decide)

/-- Samples of the 3 x 1 picture 7, 0, 255. -/
example : Mean [7, 0, 255] 255 (262 / 765) ∧ Least [7, 0, 255] 0 ∧ Greatest [7, 0, 255] 255 := by
  have := mean_ok exS (l := [7, 0, 255]) (t := 255) (by decide) (by decide) (by decide)
  have e : quotient exS [7, 0, 255].sum ([7, 0, 255].length * 255) = 262 / 765 := by decide +kernel
  rw [e] at this
  exact ⟨this, by unfold Least; decide, by unfold Greatest; decide⟩

/-- Planes that do not exist are refused. -/
example : ∃ m, statsCreate exS 32 (clip1 gray8 4 4 dot Dict.empty).vi none 1 none = .err m :=
  C82_refused exS (clip1_valid gray8_44 dot Dict.empty) (other := none) (fun d h => by cases h) (Or.inr (Or.inr (Or.inl (by decide))))

end VS.Stats
