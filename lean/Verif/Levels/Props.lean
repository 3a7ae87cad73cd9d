import Verif.Levels.Lemmas
import Verif.Generic.PropsMore

/-! # C75: Levels -/

namespace VS.Levels
open VS VS.Format VS.Map VS.Map.Spec VS.Pix VS.Pix.Spec VS.Point VS.Point.Spec VS.Pixel VS.Pixel.Spec VS.Generic VS.Generic.Spec VS.Levels.Spec

variable (F : LFloats)

/-! ## Frames -/

theorem lev_gives {al : Nat} (hal : AlignOk al) (op : Kind → VFmt → Nat → Nat → Nat) {c : PClip}
    (hv : ValidClip al c) {planes : List Int} {process : List Bool}
    (hpr : ∀ p : Nat, p < 3 → process.getD p false = decide (Wanted planes p)) {n : Nat} {f : Frm} (hf : at? c n = some f)
    (hw : Workable f.fmt) {S : Nat → Nat → Nat → Int}
    (hS : ∀ k, KindOk f.fmt k → ∀ p x y : Nat, (p : Int) < f.fmt.numPlanes → Wanted planes p →
      ((op k f.fmt p (smp al f p x y) % 256 ^ bps f.fmt : Nat) : Int) = S p x y) :
    Gives al (.filter (levFilter al c.vi op process)) [c] n f.fmt f.width f.height f.props fun p x y =>
      if Wanted planes p then S p x y else smp al f p x y := by
  intro junk
  have va := hv.frames f (at_mem hf)
  obtain ⟨k, hk, g, e, v, g1, g2, g3, g4, g5⟩ := pixFrame_ok (align_pos hal) "Levels" op va hw process junk
  have hnp := (fmtOk va.fmt va.known).planes
  refine ⟨g, frame_ok ?_ (fun hc => by rw [g1]; exact hv.fmt f (at_mem hf) hc) (fun hc => by rw [g2, g3]; exact hv.size f (at_mem hf) hc),
    v, g1, g2, g3, g4, ?_⟩
  · show (getFrameFilter [c] [(0, n)] 0 n >>= fun src => _) = _
    rw [get_ok (i := 0) rfl hv (by simp) hf, Res.bind_ok, ← e]
    unfold pixFrame
    rw [(workable_iff _).2 hw, if_neg (by decide)]
  · intro p x y hp hx hy
    rw [g5 p x y hp hx hy, hpr p (by omega)]
    dsimp only
    by_cases w : Wanted planes p
    · rw [decide_eq_true w, if_pos rfl, if_pos w]
      exact hS k hk p x y hp w
    · rw [decide_eq_false w, if_neg w]; rfl

/-! ## Arguments -/

theorem loop_element {vals : List Nat} (hl : vals.length ≤ 3) {p : Nat} (hp : p < 3) : (floatLoop 3 none vals).getD p none = element vals p := by
  match vals, hl with
  | [], _ =>
    match p, hp with
    | 0, _ => rfl
    | 1, _ => rfl
    | 2, _ => rfl
  | [_], _ =>
    match p, hp with
    | 0, _ => rfl
    | 1, _ => rfl
    | 2, _ => rfl
  | [_, _], _ =>
    match p, hp with
    | 0, _ => rfl
    | 1, _ => rfl
    | 2, _ => rfl
  | [_, _, _], _ =>
    match p, hp with
    | 0, _ => rfl
    | 1, _ => rfl
    | 2, _ => rfl

theorem num_iff {vals : List Nat} (hl : vals.length ≤ 3) {p : Nat} (hp : p < 3) (d q : Rat) :
    argVal F d ((floatLoop 3 none vals).getD p none) = some q ↔ NumFor F vals d p q := by
  rw [loop_element hl hp]
  unfold argVal NumFor
  cases vals with
  | nil =>
    show some d = some q ↔ _
    constructor
    · intro h
      injection h with h
      exact Or.inl ⟨rfl, h.symm⟩
    · rintro (⟨_, rfl⟩ | ⟨b, h, _⟩)
      · rfl
      · cases h
  | cons b t =>
    obtain ⟨x, hx⟩ : ∃ x, element (b :: t) p = some x := by
      unfold element
      exact ⟨_, List.getElem?_eq_getElem (by simp; omega)⟩
    rw [hx]
    dsimp only
    constructor
    · intro h
      exact Or.inr ⟨x, rfl, h⟩
    · rintro (⟨h, _⟩ | ⟨b, h, h'⟩)
      · cases h
      · cases h
        exact h'

theorem white_eq (f : VFmt) : maxDefault f = white f := rfl

/-- The checks of a plane. -/
theorem plane_ok {f : VFmt} {a : Args} (hc : CountOk f a) (hn : f.numPlanes ≤ 3) {p : Nat} (hp : p < 3) {q1 q2 q3 q4 g : Rat}
    (h : PlaneIs F f a p q1 q2 q3 q4 g) :
    levPlane F f (floatLoop 3 none a.minIn) (floatLoop 3 none a.maxIn) (floatLoop 3 none a.minOut) (floatLoop 3 none a.maxOut)
      (floatLoop 3 none a.gamma) p = .ok ⟨q1, q2, q3, q4, inverse F.toFloats g⟩ := by
  obtain ⟨c1, c2, c3, c4, c5⟩ := hc
  obtain ⟨h1, h2, h3, h4, h5, h6, h7⟩ := h
  unfold levPlane levOne
  rw [white_eq, (num_iff F (by omega) hp _ _).2 h1, (num_iff F (by omega) hp _ _).2 h2, (num_iff F (by omega) hp _ _).2 h3,
    (num_iff F (by omega) hp _ _).2 h4, (num_iff F (by omega) hp _ _).2 h5]
  dsimp only
  rw [if_neg (Rat.not_le.2 h6), if_neg (Rat.not_le.2 h7)]

theorem plane_bad {f : VFmt} {a : Args} (hc : CountOk f a) (hn : f.numPlanes ≤ 3) {p : Nat} (hp : p < 3)
    (h : ∀ q1 q2 q3 q4 g, ¬ PlaneIs F f a p q1 q2 q3 q4 g) :
    ∃ m, levPlane F f (floatLoop 3 none a.minIn) (floatLoop 3 none a.maxIn) (floatLoop 3 none a.minOut) (floatLoop 3 none a.maxOut)
      (floatLoop 3 none a.gamma) p = .err m := by
  obtain ⟨c1, c2, c3, c4, c5⟩ := hc
  unfold levPlane levOne
  cases e1 : argVal F 0 ((floatLoop 3 none a.minIn).getD p none) with
  | none => exact ⟨_, rfl⟩
  | some q1 =>
    cases e2 : argVal F (maxDefault f) ((floatLoop 3 none a.maxIn).getD p none) with
    | none => exact ⟨_, rfl⟩
    | some q2 =>
      cases e3 : argVal F 0 ((floatLoop 3 none a.minOut).getD p none) with
      | none => exact ⟨_, rfl⟩
      | some q3 =>
        cases e4 : argVal F (maxDefault f) ((floatLoop 3 none a.maxOut).getD p none) with
        | none => exact ⟨_, rfl⟩
        | some q4 =>
          dsimp only
          by_cases hle : q2 ≤ q1
          · rw [if_pos hle]
            exact ⟨_, rfl⟩
          rw [if_neg hle]
          cases e5 : argVal F 1 ((floatLoop 3 none a.gamma).getD p none) with
          | none => exact ⟨_, rfl⟩
          | some g =>
            dsimp only
            by_cases hg : g ≤ 0
            · rw [if_pos hg]
              exact ⟨_, rfl⟩
            exact absurd ⟨(num_iff F (by omega) hp _ _).1 e1, (num_iff F (by omega) hp _ _).1 e2, (num_iff F (by omega) hp _ _).1 e3,
              (num_iff F (by omega) hp _ _).1 e4, (num_iff F (by omega) hp _ _).1 e5, Rat.not_le.1 hle, Rat.not_le.1 hg⟩ (h q1 q2 q3 q4 g)

/-! ## Lists of planes -/

theorem levArgs_ok (process : List Bool) (args : Nat → Res Lev) (lev : Nat → Lev) : ∀ l : List Nat,
    (∀ p ∈ l, process.getD p false = true → args p = .ok (lev p)) →
    levArgs process args l = .ok (l.map fun p => if process.getD p false then some (lev p) else none) := by
  intro l
  induction l with
  | nil => exact fun _ => rfl
  | cons p t ih =>
    intro h
    have ih := ih fun q hq => h q (List.mem_cons_of_mem _ hq)
    unfold levArgs
    rw [ih, List.map_cons]
    by_cases c : process.getD p false = true
    · rw [if_pos c, if_pos c, h p List.mem_cons_self c, Res.bind_ok, Res.bind_ok]
    · rw [if_neg c, if_neg c, Res.bind_ok]

theorem levArgs_bad (process : List Bool) (args : Nat → Res Lev) : ∀ l : List Nat,
    (∀ p ∈ l, process.getD p false = true → (∃ x, args p = .ok x) ∨ ∃ m, args p = .err m) →
    (∃ p ∈ l, process.getD p false = true ∧ ∃ m, args p = .err m) → ∃ m, levArgs process args l = .err m := by
  intro l
  induction l with
  | nil => rintro _ ⟨p, hp, _⟩; cases hp
  | cons p t ih =>
    rintro h ⟨q, hq, hpr, m, hm⟩
    have ih := ih fun q hq => h q (List.mem_cons_of_mem _ hq)
    unfold levArgs
    by_cases c : process.getD p false = true
    · rw [if_pos c]
      rcases h p List.mem_cons_self c with ⟨x, e⟩ | ⟨m', e⟩
      · rw [e, Res.bind_ok]
        rcases List.mem_cons.1 hq with rfl | hq
        · rw [e] at hm
          cases hm
        · obtain ⟨m', e'⟩ := ih ⟨q, hq, hpr, m, hm⟩
          rw [e']
          exact ⟨m', rfl⟩
      · rw [e]
        exact ⟨m', rfl⟩
    · rw [if_neg c]
      rcases List.mem_cons.1 hq with rfl | hq
      · exact absurd hpr c
      · obtain ⟨m', e'⟩ := ih ⟨q, hq, hpr, m, hm⟩
        rw [e']
        exact ⟨m', rfl⟩

theorem levEntries_ok {t : Nat} (ht : t ≤ 65535) {r : Rounded} (hr : r.Ok) (gamma : Rat) : ∀ l : List Nat,
    ∃ T, levEntries F t r.minIn r.maxIn r.minOut r.maxOut (inverse F.toFloats gamma) l = .ok T ∧ T.length = l.length ∧
      ∀ i v, l[i]? = some v → LevelsValue F t r gamma v (T.getD i 0) := by
  intro l
  induction l with
  | nil => exact ⟨[], rfl, rfl, fun i v h => by cases h⟩
  | cons v l ih =>
    obtain ⟨T, e, hl, h⟩ := ih
    obtain ⟨x, ex, hx⟩ := levEntry_ok F ht hr gamma v
    refine ⟨x :: T, ?_, by rw [List.length_cons, List.length_cons, hl], ?_⟩
    · unfold levEntries
      rw [ex, Res.bind_ok, e, Res.bind_ok]
    · intro i w hw
      cases i with
      | zero =>
        rw [List.getElem?_cons_zero] at hw
        injection hw with hw
        subst hw
        exact hx
      | succ i =>
        rw [List.getElem?_cons_succ] at hw
        rw [List.getD_cons_succ]
        exact h i w hw

theorem rounds_unique {q : Rat} {a b : Int} (ha : RoundsTo q a) (hb : RoundsTo q b) : a = b := by
  obtain ⟨a1, a2⟩ := ha
  obtain ⟨b1, b2⟩ := hb
  have a1' := rabs_le.1 a1
  have b1' := rabs_le.1 b1
  have h1 := Rat.intCast_lt_intCast.1 (show (a : Rat) < ((b + 2 : Int) : Rat) by push_cast; grind)
  have h2 := Rat.intCast_lt_intCast.1 (show (b : Rat) < ((a + 2 : Int) : Rat) by push_cast; grind)
  -- the numbers differ by at most one; if they differ there is a tie
  have tie : ∀ a b : Int, b = a + 1 → rabs (q - a) ≤ 1 / 2 → rabs (q - b) ≤ 1 / 2 → (rabs (q - a) = 1 / 2 → rabs q ≤ rabs a) →
      (rabs (q - b) = 1 / 2 → rabs q ≤ rabs b) → False := by
    intro a b hab h1 h2 h3 h4
    subst hab
    have h1 := rabs_le.1 h1
    have h2 := rabs_le.1 h2
    push_cast at h2 h4
    have hq : q = a + 1 / 2 := by
      have hu : (1 : Rat) / 2 + 1 / 2 = 1 := by grind
      generalize (1 : Rat) / 2 = u at *
      grind
    subst hq
    have e1 : (a : Rat) + 1 / 2 - a = 1 / 2 := by grind
    have e2 : (a : Rat) + 1 / 2 - (a + 1) = -(1 / 2) := by grind
    rw [e1] at h3
    rw [e2] at h4
    have h3 := h3 (by unfold rabs; grind)
    have h4 := h4 (by unfold rabs; grind)
    have hz : ((0 : Int) : Rat) = 0 := rfl
    have hz1 : ((-1 : Int) : Rat) = -1 := rfl
    by_cases c : 0 ≤ a
    · have := Rat.intCast_le_intCast.2 c
      rw [rabs_pos (show (0 : Rat) ≤ a by grind), rabs_pos (show (0 : Rat) ≤ (a : Rat) + 1 / 2 by grind)] at h3
      grind
    · have := Rat.intCast_le_intCast.2 (show a ≤ -1 by omega)
      have r1 : rabs ((a : Rat) + 1) = -(a + 1) := by unfold rabs; grind
      have r2 : rabs ((a : Rat) + 1 / 2) = -(a + 1 / 2) := by unfold rabs; grind
      rw [r1, r2] at h4
      grind
  by_cases c : a = b
  · exact c
  · by_cases c2 : b = a + 1
    · exact (tie a b c2 a1 b1 a2 b2).elim
    · exact (tie b a (by omega) b1 a1 b2 a2).elim

/-- The rounded arguments. -/
def roundLev (l : Lev) : Rounded := ⟨roundAway l.minIn, roundAway l.maxIn, roundAway l.minOut, roundAway l.maxOut⟩

theorem levTable_ok {t : Nat} (ht : t ≤ 65535) {l : Lev} {gamma : Rat} (hg : l.gamma = inverse F.toFloats gamma) (hr : (roundLev l).Ok) :
    ∃ T, levTable F t l = .ok T ∧ ∀ v, v ≤ t → LevelsValue F t (roundLev l) gamma v (T.getD v 0) := by
  obtain ⟨T, e, _, h⟩ := levEntries_ok F ht hr gamma (List.range (t + 1))
  refine ⟨T, ?_, fun v hv => h v v (by rw [List.getElem?_range (by omega)])⟩
  unfold levTable
  dsimp only
  rw [if_neg, hg]
  · exact e
  · have hN := Rat.intCast_le_intCast.2 (show (1 : Int) ≤ roundAway l.maxIn - roundAway l.minIn by
      have : roundAway l.minIn < roundAway l.maxIn := hr.1
      omega)
    have e1 : ((1 : Int) : Rat) = 1 := rfl
    have h1 := rnd_int_close F.toFloats (roundAway l.maxIn - roundAway l.minIn)
    rw [rabs_pos (show 0 ≤ ((roundAway l.maxIn - roundAway l.minIn : Int) : Rat) by grind)] at h1
    have h1 := rabs_le.1 h1
    intro hc
    have hc : -(1 / 2 ^ 23) ≤ F.rnd ((roundAway l.maxIn - roundAway l.minIn : Int) : Rat) ∧ F.rnd ((roundAway l.maxIn - roundAway l.minIn : Int) : Rat) ≤ 1 / 2 ^ 23 :=
      rabs_le.1 (Rat.le_of_lt hc)
    grind

theorem levTables_ok {t : Nat} (ht : t ≤ 65535) (lev : Nat → Option Lev) (gamma : Nat → Rat) : ∀ l : List Nat,
    (∀ p ∈ l, ∀ x, lev p = some x → x.gamma = inverse F.toFloats (gamma p) ∧ (roundLev x).Ok) →
    ∃ T, levTables F t (l.map lev) = .ok T ∧ ∀ i p x, l[i]? = some p → lev p = some x → ∀ v, v ≤ t →
      LevelsValue F t (roundLev x) (gamma p) v ((T.getD i []).getD v 0) := by
  intro l
  induction l with
  | nil => exact fun _ => ⟨[], rfl, fun i p x h => by cases h⟩
  | cons p l ih =>
    intro h
    obtain ⟨T, e, hT⟩ := ih fun q hq => h q (List.mem_cons_of_mem _ hq)
    rw [List.map_cons]
    cases hp : lev p with
    | none =>
      refine ⟨[] :: T, ?_, ?_⟩
      · unfold levTables
        rw [e, Res.bind_ok]
      · intro i q x hq hx
        cases i with
        | zero =>
          rw [List.getElem?_cons_zero] at hq
          injection hq with hq
          subst hq
          rw [hp] at hx
          cases hx
        | succ i =>
          rw [List.getElem?_cons_succ] at hq
          rw [List.getD_cons_succ]
          exact hT i q x hq hx
    | some y =>
      obtain ⟨h1, h2⟩ := h p List.mem_cons_self y hp
      obtain ⟨T1, e1, hT1⟩ := levTable_ok F ht h1 h2
      refine ⟨T1 :: T, ?_, ?_⟩
      · unfold levTables
        rw [e1, Res.bind_ok, e, Res.bind_ok]
      · intro i q x hq hx
        cases i with
        | zero =>
          rw [List.getElem?_cons_zero] at hq
          injection hq with hq
          subst hq
          rw [hp] at hx
          injection hx with hx
          subst hx
          exact hT1
        | succ i =>
          rw [List.getElem?_cons_succ] at hq
          rw [List.getD_cons_succ]
          exact hT i q x hq hx

theorem create_args {al : Nat} {vi : VInfo} {planes : List Int} (hw : Workable vi.format) (hp : PlanesOk planes) {a : Args}
    (hc : CountOk vi.format a) :
    ∃ process, (∀ p : Nat, p < 3 → process.getD p false = decide (Wanted planes p)) ∧
      levelsCreate F al vi planes a.minIn a.maxIn a.minOut a.maxOut a.gamma =
        (levArgs process (levPlane F vi.format (floatLoop 3 none a.minIn) (floatLoop 3 none a.maxIn) (floatLoop 3 none a.minOut)
          (floatLoop 3 none a.maxOut) (floatLoop 3 none a.gamma)) (List.range vi.format.numPlanes.toNat) >>= fun levs =>
          tablesFor F vi.format levs >>= fun tables => create (levFilter al vi (levOp F tables levs) process)) := by
  obtain ⟨process, e, hpr⟩ := planes_ok "Levels" hp
  obtain ⟨c1, c2, c3, c4, c5⟩ := hc
  refine ⟨process, hpr, ?_⟩
  unfold levelsCreate floatArgs
  rw [(workable_iff _).2 hw, if_neg (by decide), getPlanes_eq, e, Res.bind_ok, if_neg (by omega), Res.bind_ok, if_neg (by omega), Res.bind_ok,
    if_neg (by omega), Res.bind_ok, if_neg (by omega), Res.bind_ok, if_neg (by omega), Res.bind_ok]

/-! ## Theorems -/

/-- C75: Levels moves the samples of the chosen planes of integer clips from the range of the input to that of the output. Samples that are
larger than the largest value of the format count as that. Everything else is copied. -/
theorem C75_levels {al : Nat} (hal : AlignOk al) {c : PClip} (hv : ValidClip al c) {planes : List Int} (hw : Workable c.vi.format)
    (ht : c.vi.format.sampleType = stInteger) (hp : PlanesOk planes) {a : Args} (hc : CountOk c.vi.format a) {r : Nat → Rounded} {gamma : Nat → Rat}
    (hr : ∀ p : Nat, (p : Int) < c.vi.format.numPlanes → Wanted planes p → RoundedIs F c.vi.format a p (r p) (gamma p) ∧ (r p).Ok) :
    ∃ C, levelsCreate F al c.vi planes a.minIn a.maxIn a.minOut a.maxOut a.gamma = .ok C ∧ outInfo C [c] = some c.vi ∧
      ∃ T : Nat → Nat → Nat, (∀ p : Nat, (p : Int) < c.vi.format.numPlanes → Wanted planes p → ∀ v, v ≤ top c.vi.format →
          LevelsValue F (top c.vi.format) (r p) (gamma p) v (T p v)) ∧
        ∀ n f, at? c n = some f → Gives al C [c] n f.fmt f.width f.height f.props fun p x y =>
          if Wanted planes p then (T p (min (smp al f p x y) (top f.fmt)) : Int) else smp al f p x y := by
  have hnp := (fmtOk (struct_of hv) hw.1).planes
  obtain ⟨process, hpr, e⟩ := create_args F (al := al) hw hp hc
  obtain ⟨k0, _, _, hk0⟩ := kind_ok (struct_of hv) hw
  obtain ⟨ht0, hk1⟩ := int_kind hk0 ht
  have ht16 : top c.vi.format ≤ 65535 := by rcases hk1 with ⟨_, e, _⟩ | ⟨_, e⟩ <;> rw [e] at ht0 <;> omega
  -- the arguments of the planes
  have hlev : ∀ p : Nat, ∃ l : Lev, ((p : Int) < c.vi.format.numPlanes → Wanted planes p →
      levPlane F c.vi.format (floatLoop 3 none a.minIn) (floatLoop 3 none a.maxIn) (floatLoop 3 none a.minOut) (floatLoop 3 none a.maxOut)
        (floatLoop 3 none a.gamma) p = .ok l ∧ l.gamma = inverse F.toFloats (gamma p) ∧ roundLev l = r p) := by
    intro p
    by_cases h : (p : Int) < c.vi.format.numPlanes ∧ Wanted planes p
    · obtain ⟨⟨q1, q2, q3, q4, hpl, h1, h2, h3, h4⟩, _⟩ := hr p h.1 h.2
      refine ⟨_, fun _ _ => ⟨plane_ok F hc (by omega) (by omega) hpl, rfl, ?_⟩⟩
      unfold roundLev
      dsimp only
      rw [rounds_unique (roundAway_spec q1) h1, rounds_unique (roundAway_spec q2) h2, rounds_unique (roundAway_spec q3) h3,
        rounds_unique (roundAway_spec q4) h4]
    · exact ⟨⟨0, 0, 0, 0, none⟩, fun h1 h2 => absurd ⟨h1, h2⟩ h⟩
  obtain ⟨lev, hlev⟩ := Classical.axiomOfChoice hlev
  have hw' : ∀ p ∈ List.range c.vi.format.numPlanes.toNat, process.getD p false = true → (p : Int) < c.vi.format.numPlanes ∧ Wanted planes p := by
    intro p hp hpr'
    have hp := List.mem_range.1 hp
    rw [hpr p (by omega), decide_eq_true_eq] at hpr'
    exact ⟨by omega, hpr'⟩
  rw [levArgs_ok process _ lev _ (fun p hp hpr' => (hlev p (hw' p hp hpr').1 (hw' p hp hpr').2).1), Res.bind_ok] at e
  obtain ⟨T, eT, hT⟩ := levTables_ok F ht16 (fun p => if process.getD p false then some (lev p) else none) gamma
    (List.range c.vi.format.numPlanes.toNat) (by
      intro p hp x hx
      split at hx
      · next c1 =>
        injection hx with hx
        subst hx
        obtain ⟨i1, i2⟩ := hw' p hp c1
        obtain ⟨_, j1, j2⟩ := hlev p i1 i2
        exact ⟨j1, j2 ▸ (hr p i1 i2).2⟩
      · cases hx)
  have eTf : tablesFor F c.vi.format ((List.range c.vi.format.numPlanes.toNat).map fun p => if process.getD p false then some (lev p) else none) =
      .ok T := by
    unfold tablesFor
    rw [if_pos ht]
    exact eT
  rw [eTf, Res.bind_ok, create_ok (by exact hv.info)] at e
  have hval : ∀ p : Nat, (p : Int) < c.vi.format.numPlanes → Wanted planes p → ∀ v, v ≤ top c.vi.format →
      LevelsValue F (top c.vi.format) (r p) (gamma p) v ((T.getD p []).getD v 0) := by
    intro p h1 h2 v hv
    have hpp : process.getD p false = true := by rw [hpr p (by omega)]; exact decide_eq_true h2
    have := hT p p (lev p) (by rw [List.getElem?_range (by omega)]) (by rw [if_pos hpp]) v hv
    rw [(hlev p h1 h2).2.2] at this
    exact this
  refine ⟨_, e, rfl, fun p v => (T.getD p []).getD v 0, hval, ?_⟩
  intro n f hf
  have ef := hv.fmt f (at_mem hf) hw.1
  refine lev_gives hal _ hv hpr hf (by rw [ef]; exact hw) ?_
  intro k hk p x y hpl hwp
  rw [ef] at hk hpl ⊢
  have hb : (T.getD p []).getD (min (smp al f p x y) (top c.vi.format)) 0 ≤ top c.vi.format := (hval p hpl hwp _ (Nat.min_le_right _ _)).1
  obtain ⟨_, hk2⟩ := int_kind hk ht
  have key : levOp F T ((List.range c.vi.format.numPlanes.toNat).map fun p => if process.getD p false then some (lev p) else none) k c.vi.format p
      (smp al f p x y) = (T.getD p []).getD (min (smp al f p x y) (top c.vi.format)) 0 := by
    unfold levOp
    rcases hk2 with ⟨rfl, hb1, _⟩ | ⟨rfl, hb2⟩
    · rw [hb1] at ht0
      dsimp only
      rw [Nat.mod_eq_of_lt (show 2 ^ c.vi.format.bitsPerSample.toNat - 1 < 256 from ht0)]
      rfl
    · dsimp only
      rw [Nat.mod_eq_of_lt (show 2 ^ c.vi.format.bitsPerSample.toNat - 1 < 65536 by
        have : 2 ^ c.vi.format.bitsPerSample.toNat - 1 ≤ 65535 := ht16
        omega)]
      rfl
  rw [key, Nat.mod_eq_of_lt (by omega)]

/-- C75: without arguments no sample is changed. -/
theorem C75_identity {al : Nat} (hal : AlignOk al) {c : PClip} (hv : ValidClip al c) {planes : List Int} (hw : Workable c.vi.format)
    (ht : c.vi.format.sampleType = stInteger) (hp : PlanesOk planes) :
    ∃ C, levelsCreate F al c.vi planes [] [] [] [] [] = .ok C ∧ outInfo C [c] = some c.vi ∧
      ∀ n f, at? c n = some f → Gives al C [c] n f.fmt f.width f.height f.props fun p x y =>
        if Wanted planes p then (min (smp al f p x y) (top f.fmt) : Nat) else smp al f p x y := by
  have hnp := (fmtOk (struct_of hv) hw.1).planes
  obtain ⟨k0, _, _, hk0⟩ := kind_ok (struct_of hv) hw
  obtain ⟨ht0, hk1⟩ := int_kind hk0 ht
  have ht16 : top c.vi.format ≤ 65535 := by rcases hk1 with ⟨_, e, _⟩ | ⟨_, e⟩ <;> rw [e] at ht0 <;> omega
  have ht1 : 1 ≤ top c.vi.format := by
    unfold top
    have h8 : 8 ≤ c.vi.format.bitsPerSample.toNat := by
      have := small_depth (struct_of hv) hw ht
      omega
    have := Nat.pow_le_pow_right (show 0 < 2 by omega) h8
    omega
  have htr : ((top c.vi.format : Nat) : Rat) ≤ 65535 := by exact_mod_cast ht16
  have htr1 : (1 : Rat) ≤ ((top c.vi.format : Nat) : Rat) := by exact_mod_cast ht1
  have rself : ∀ z : Int, RoundsTo z z := by
    intro z
    unfold RoundsTo
    rw [Rat.sub_self, rabs_zero]
    exact ⟨by grind, fun h => by grind⟩
  obtain ⟨C, e, ho, T, hT, h⟩ := C75_levels F hal hv hw ht hp (a := {}) (r := fun _ => ⟨0, top c.vi.format, 0, top c.vi.format⟩)
    (gamma := fun _ => 1) ⟨by simpa using Int.le_of_lt (by omega), by simpa using Int.le_of_lt (by omega), by simpa using Int.le_of_lt (by omega),
      by simpa using Int.le_of_lt (by omega), by simpa using Int.le_of_lt (by omega)⟩ (by
    intro p _ _
    refine ⟨⟨0, ((top c.vi.format : Nat) : Rat), 0, ((top c.vi.format : Nat) : Rat), ⟨Or.inl ⟨rfl, rfl⟩, Or.inl ⟨rfl, ?_⟩, Or.inl ⟨rfl, rfl⟩,
      Or.inl ⟨rfl, ?_⟩, Or.inl ⟨rfl, rfl⟩, by grind, by grind⟩, rself 0, ?_, rself 0, ?_⟩, ?_, ?_, ?_⟩
    · unfold white; rw [if_pos ht]
    · unfold white; rw [if_pos ht]
    · have := rself (top c.vi.format : Int)
      rw [Rat.intCast_natCast] at this
      exact this
    · have := rself (top c.vi.format : Int)
      rw [Rat.intCast_natCast] at this
      exact this
    · show (0 : Int) < (top c.vi.format : Int)
      omega
    all_goals
      show rabs (((top c.vi.format : Int) - 0 : Int) : Rat) < 2 ^ 127
      rw [Int.sub_zero, Rat.intCast_natCast, rabs_pos (by grind)]
      grind)
  refine ⟨C, e, ho, ?_⟩
  intro n f hf junk
  have ef := hv.fmt f (at_mem hf) hw.1
  obtain ⟨g, a1, a2, a3, a4, a5, a6, a7⟩ := h n f hf junk
  refine ⟨g, a1, a2, a3, a4, a5, a6, ?_⟩
  intro p x y hpl hx hy
  rw [a7 p x y hpl hx hy]
  dsimp only
  by_cases hwp : Wanted planes p
  · rw [if_pos hwp, if_pos hwp]
    rw [ef] at hpl ⊢
    have hle := Nat.min_le_right (smp al f p x y) (top c.vi.format)
    generalize min (smp al f p x y) (top c.vi.format) = v at *
    obtain ⟨_, ⟨x, y, h1, h2, _, h3⟩, _⟩ := hT p hpl hwp v hle
    have h2 := h2 rfl
    subst h2
    congr 1
    have hvr : ((v : Nat) : Rat) ≤ ((top c.vi.format : Nat) : Rat) := by exact_mod_cast hle
    have hv0 : (0 : Rat) ≤ ((v : Nat) : Rat) := by exact_mod_cast Nat.zero_le v
    have er : ratio ⟨0, top c.vi.format, 0, top c.vi.format⟩ v * ((top c.vi.format : Nat) : Rat) = v := by
      unfold ratio
      dsimp only
      rw [show max (min (v : Int) (top c.vi.format : Int)) 0 - 0 = (v : Int) by omega, Int.sub_zero, Rat.intCast_natCast, Rat.intCast_natCast]
      grind
    dsimp only at h3
    rw [Int.sub_zero, Rat.intCast_natCast] at h3
    have e0 : ((0 : Int) : Rat) = 0 := rfl
    rw [e0, rabs_zero] at h3
    generalize ((top c.vi.format : Nat) : Rat) = t at *
    generalize ratio ⟨0, top c.vi.format, 0, top c.vi.format⟩ v = q at *
    generalize hV : ((v : Nat) : Rat) = V at *
    have hq : 0 ≤ q := by
      refine Rat.not_lt.1 fun hc => ?_
      have := Rat.mul_pos (show 0 < -q by grind) (show 0 < t by grind)
      grind
    have h4 : rabs (y * t - V) ≤ V / 2 ^ 21 + t / 2 ^ 100 := by
      rw [← er, show y * t - q * t = (y - q) * t by grind, rabs_mul, rabs_pos (show 0 ≤ t by grind)]
      have := Rat.mul_le_mul_of_nonneg_right h1 (show 0 ≤ t by grind)
      grind
    have h4 := rabs_le.1 h4
    have h5 : rabs (y * t) ≤ 2 ^ 17 := by
      rw [rabs_le]
      grind
    generalize y * t = P at *
    have h3 := rabs_le.1 h3
    have h6 : ((T p v : Nat) : Rat) < V + 1 := by grind
    have h7 : V < ((T p v : Nat) : Rat) + 1 := by grind
    rw [← hV] at h6 h7
    have h6 : T p v < v + 1 := by
      have : ((T p v : Nat) : Rat) < ((v + 1 : Nat) : Rat) := by push_cast; exact h6
      exact_mod_cast this
    have h7 : v < T p v + 1 := by
      have : ((v : Nat) : Rat) < ((T p v + 1 : Nat) : Rat) := by push_cast; exact h7
      exact_mod_cast this
    omega
  · rw [if_neg hwp, if_neg hwp]

/-- C75: the samples of float clips are computed from the numbers as they are, without rounding them. -/
theorem C75_float {al : Nat} (hal : AlignOk al) {c : PClip} (hv : ValidClip al c) {planes : List Int} (hw : Workable c.vi.format)
    (ht : c.vi.format.sampleType = stFloat) (hp : PlanesOk planes) {a : Args} (hc : CountOk c.vi.format a) {minIn maxIn minOut maxOut gamma : Nat → Rat}
    (hr : ∀ p : Nat, (p : Int) < c.vi.format.numPlanes → Wanted planes p →
      PlaneIs F c.vi.format a p (minIn p) (maxIn p) (minOut p) (maxOut p) (gamma p)) :
    ∃ C, levelsCreate F al c.vi planes a.minIn a.maxIn a.minOut a.maxOut a.gamma = .ok C ∧ outInfo C [c] = some c.vi ∧
      ∀ n f, at? c n = some f → Gives al C [c] n f.fmt f.width f.height f.props fun p x y =>
        if Wanted planes p then ((F.levelsF (floatKind f.fmt) (minIn p) (maxIn p) (minOut p) (maxOut p) (inverse F.toFloats (gamma p))
          (smp al f p x y) % 256 ^ bps f.fmt : Nat) : Int) else smp al f p x y := by
  have hnp := (fmtOk (struct_of hv) hw.1).planes
  obtain ⟨process, hpr, e⟩ := create_args F (al := al) hw hp hc
  have hw' : ∀ p ∈ List.range c.vi.format.numPlanes.toNat, process.getD p false = true → (p : Int) < c.vi.format.numPlanes ∧ Wanted planes p := by
    intro p hp hpr'
    have hp := List.mem_range.1 hp
    rw [hpr p (by omega), decide_eq_true_eq] at hpr'
    exact ⟨by omega, hpr'⟩
  rw [levArgs_ok process _ (fun p => ⟨minIn p, maxIn p, minOut p, maxOut p, inverse F.toFloats (gamma p)⟩) _ (fun p hp hpr' =>
    plane_ok F hc (by omega) (by have := List.mem_range.1 hp; omega) (hr p (hw' p hp hpr').1 (hw' p hp hpr').2)), Res.bind_ok] at e
  have eTf : ∀ l, tablesFor F c.vi.format l = .ok [] := by
    intro l
    unfold tablesFor
    rw [if_neg (by rw [ht]; decide)]
  rw [eTf, Res.bind_ok, create_ok (by exact hv.info)] at e
  refine ⟨_, e, rfl, ?_⟩
  intro n f hf
  have ef := hv.fmt f (at_mem hf) hw.1
  refine lev_gives hal _ hv hpr hf (by rw [ef]; exact hw) ?_
  intro k hk p x y hpl hwp
  rw [ef] at hk hpl ⊢
  have hpp : process.getD p false = true := by rw [hpr p (by omega)]; exact decide_eq_true hwp
  obtain ⟨ht1, hk1⟩ := float_kind hk ht
  rw [← ht1]
  unfold levOp
  have eg : ((List.range c.vi.format.numPlanes.toNat).map fun p =>
      if process.getD p false then some (⟨minIn p, maxIn p, minOut p, maxOut p, inverse F.toFloats (gamma p)⟩ : Lev) else none).getD p none =
      some ⟨minIn p, maxIn p, minOut p, maxOut p, inverse F.toFloats (gamma p)⟩ := by
    rw [List.getD_eq_getElem?_getD, List.getElem?_map, List.getElem?_range (by omega)]
    simp only [Option.map_some, Option.getD_some]
    rw [if_pos hpp]
  rcases hk1 with rfl | rfl <;> simp only [eg]

/-! ## Errors -/

/-- C75: other formats, more values than planes, numbers that aren't finite, ranges of the input that are empty and `gamma` that isn't
positive are refused. -/
theorem C75_refused {al : Nat} {c : PClip} (hv : ValidClip al c) {planes : List Int} {a : Args}
    (h : ¬ Workable c.vi.format ∨ ¬ PlanesOk planes ∨ ¬ CountOk c.vi.format a ∨
      ∃ p : Nat, (p : Int) < c.vi.format.numPlanes ∧ Wanted planes p ∧ ∀ q1 q2 q3 q4 g, ¬ PlaneIs F c.vi.format a p q1 q2 q3 q4 g) :
    ∃ m, levelsCreate F al c.vi planes a.minIn a.maxIn a.minOut a.maxOut a.gamma = .err m := by
  by_cases hw : ¬ Workable c.vi.format
  · unfold levelsCreate
    rw [not_workable hw]
    exact ⟨_, rfl⟩
  have hw := Classical.not_not.1 hw
  have hnp := (fmtOk (struct_of hv) hw.1).planes
  by_cases hp : ¬ PlanesOk planes
  · unfold levelsCreate
    obtain ⟨m, e⟩ := planes_bad "Levels" hp
    rw [(workable_iff _).2 hw, if_neg (by decide), getPlanes_eq, e]
    exact ⟨m, rfl⟩
  have hp := Classical.not_not.1 hp
  by_cases hc : ¬ CountOk c.vi.format a
  · obtain ⟨process, e, hpr⟩ := planes_ok "Levels" hp
    unfold levelsCreate
    rw [(workable_iff _).2 hw, if_neg (by decide), getPlanes_eq, e, Res.bind_ok]
    unfold floatArgs
    by_cases c1 : (a.minIn.length : Int) > c.vi.format.numPlanes
    · rw [if_pos c1]; exact ⟨_, rfl⟩
    rw [if_neg c1, Res.bind_ok]
    by_cases c2 : (a.minOut.length : Int) > c.vi.format.numPlanes
    · rw [if_pos c2]; exact ⟨_, rfl⟩
    rw [if_neg c2, Res.bind_ok]
    by_cases c3 : (a.maxIn.length : Int) > c.vi.format.numPlanes
    · rw [if_pos c3]; exact ⟨_, rfl⟩
    rw [if_neg c3, Res.bind_ok]
    by_cases c4 : (a.maxOut.length : Int) > c.vi.format.numPlanes
    · rw [if_pos c4]; exact ⟨_, rfl⟩
    rw [if_neg c4, Res.bind_ok]
    by_cases c5 : (a.gamma.length : Int) > c.vi.format.numPlanes
    · rw [if_pos c5]; exact ⟨_, rfl⟩
    exact absurd ⟨by omega, by omega, by omega, by omega, by omega⟩ hc
  have hc := Classical.not_not.1 hc
  obtain ⟨p, hpl, hwp, hbad⟩ : ∃ p : Nat, (p : Int) < c.vi.format.numPlanes ∧ Wanted planes p ∧ ∀ q1 q2 q3 q4 g, ¬ PlaneIs F c.vi.format a p q1 q2 q3 q4 g := by
    rcases h with h | h | h | h
    · exact absurd hw h
    · exact absurd hp h
    · exact absurd hc h
    · exact h
  obtain ⟨process, hpr, e⟩ := create_args F (al := al) hw hp hc
  have hpp : process.getD p false = true := by rw [hpr p (by omega)]; exact decide_eq_true hwp
  obtain ⟨m, em⟩ := levArgs_bad process (levPlane F c.vi.format (floatLoop 3 none a.minIn) (floatLoop 3 none a.maxIn) (floatLoop 3 none a.minOut)
    (floatLoop 3 none a.maxOut) (floatLoop 3 none a.gamma)) (List.range c.vi.format.numPlanes.toNat) (by
      intro q hq _
      have hq := List.mem_range.1 hq
      by_cases hx : ∃ q1 q2 q3 q4 g, PlaneIs F c.vi.format a q q1 q2 q3 q4 g
      · obtain ⟨q1, q2, q3, q4, g, hx⟩ := hx
        exact Or.inl ⟨_, plane_ok F hc (by omega) (by omega) hx⟩
      · exact Or.inr (plane_bad F hc (by omega) (by omega) fun q1 q2 q3 q4 g h => hx ⟨q1, q2, q3, q4, g, h⟩))
    ⟨p, List.mem_range.2 (by omega), hpp, plane_bad F hc (by omega) (by omega) hbad⟩
  rw [em] at e
  exact ⟨m, e⟩

theorem levTable_bad (t : Nat) {l : Lev} (h : roundAway l.minIn = roundAway l.maxIn) : ∃ m, levTable F t l = .err m := by
  unfold levTable
  dsimp only
  rw [h, Int.sub_self, show F.rnd ((0 : Int) : Rat) = ((0 : Int) : Rat) from F.rnd_int 0 (by decide), if_pos (by
    show rabs (0 : Rat) < _
    rw [rabs_zero]
    decide +kernel)]
  exact ⟨_, rfl⟩

theorem levTables_bad {t : Nat} (ht : t ≤ 65535) (lev : Nat → Option Lev) (gamma : Nat → Rat) : ∀ l : List Nat,
    (∀ p ∈ l, ∀ x, lev p = some x → (x.gamma = inverse F.toFloats (gamma p) ∧ (roundLev x).Ok) ∨ roundAway x.minIn = roundAway x.maxIn) →
    (∃ p ∈ l, ∃ x, lev p = some x ∧ roundAway x.minIn = roundAway x.maxIn) → ∃ m, levTables F t (l.map lev) = .err m := by
  intro l
  induction l with
  | nil => rintro _ ⟨p, hp, _⟩; cases hp
  | cons p l ih =>
    rintro h ⟨q, hq, x, hx, hxe⟩
    have ih := ih fun q hq => h q (List.mem_cons_of_mem _ hq)
    rw [List.map_cons]
    have rest : (∃ y, lev p = some y ∧ roundAway y.minIn = roundAway y.maxIn) ∨ ∃ m, levTables F t (l.map lev) = .err m := by
      rcases List.mem_cons.1 hq with rfl | hq
      · exact Or.inl ⟨x, hx, hxe⟩
      · exact Or.inr (ih ⟨q, hq, x, hx, hxe⟩)
    cases hp : lev p with
    | none =>
      unfold levTables
      rcases rest with ⟨y, hy, _⟩ | ⟨m, e⟩
      · rw [hp] at hy
        cases hy
      · rw [e]
        exact ⟨m, rfl⟩
    | some y =>
      unfold levTables
      by_cases c : roundAway y.minIn = roundAway y.maxIn
      · obtain ⟨m, e⟩ := levTable_bad F t c
        rw [e]
        exact ⟨m, rfl⟩
      rcases h p List.mem_cons_self y hp with ⟨h1, h2⟩ | h1
      · obtain ⟨T1, e1, _⟩ := levTable_ok F ht h1 h2
        rw [e1, Res.bind_ok]
        rcases rest with ⟨z, hz, hze⟩ | ⟨m, e⟩
        · rw [hp] at hz
          injection hz with hz
          subst hz
          exact absurd hze c
        · rw [e]
          exact ⟨m, rfl⟩
      · exact absurd h1 c

/-- C75: a range of the input of an integer clip that is empty after rounding its ends is refused. -/
theorem C75_empty_refused {al : Nat} {c : PClip} (hv : ValidClip al c) {planes : List Int} (hw : Workable c.vi.format)
    (ht : c.vi.format.sampleType = stInteger) (hp : PlanesOk planes) {a : Args} (hc : CountOk c.vi.format a) {r : Nat → Rounded} {gamma : Nat → Rat}
    (hr : ∀ p : Nat, (p : Int) < c.vi.format.numPlanes → Wanted planes p → RoundedIs F c.vi.format a p (r p) (gamma p) ∧
      ((r p).Ok ∨ (r p).minIn = (r p).maxIn))
    (he : ∃ p : Nat, (p : Int) < c.vi.format.numPlanes ∧ Wanted planes p ∧ (r p).minIn = (r p).maxIn) :
    ∃ m, levelsCreate F al c.vi planes a.minIn a.maxIn a.minOut a.maxOut a.gamma = .err m := by
  have hnp := (fmtOk (struct_of hv) hw.1).planes
  obtain ⟨process, hpr, e⟩ := create_args F (al := al) hw hp hc
  obtain ⟨k0, _, _, hk0⟩ := kind_ok (struct_of hv) hw
  obtain ⟨ht0, hk1⟩ := int_kind hk0 ht
  have ht16 : top c.vi.format ≤ 65535 := by rcases hk1 with ⟨_, e, _⟩ | ⟨_, e⟩ <;> rw [e] at ht0 <;> omega
  have hlev : ∀ p : Nat, ∃ l : Lev, ((p : Int) < c.vi.format.numPlanes → Wanted planes p →
      levPlane F c.vi.format (floatLoop 3 none a.minIn) (floatLoop 3 none a.maxIn) (floatLoop 3 none a.minOut) (floatLoop 3 none a.maxOut)
        (floatLoop 3 none a.gamma) p = .ok l ∧ l.gamma = inverse F.toFloats (gamma p) ∧ roundLev l = r p) := by
    intro p
    by_cases h : (p : Int) < c.vi.format.numPlanes ∧ Wanted planes p
    · obtain ⟨⟨q1, q2, q3, q4, hpl, h1, h2, h3, h4⟩, _⟩ := hr p h.1 h.2
      refine ⟨_, fun _ _ => ⟨plane_ok F hc (by omega) (by omega) hpl, rfl, ?_⟩⟩
      unfold roundLev
      dsimp only
      rw [rounds_unique (roundAway_spec q1) h1, rounds_unique (roundAway_spec q2) h2, rounds_unique (roundAway_spec q3) h3,
        rounds_unique (roundAway_spec q4) h4]
    · exact ⟨⟨0, 0, 0, 0, none⟩, fun h1 h2 => absurd ⟨h1, h2⟩ h⟩
  obtain ⟨lev, hlev⟩ := Classical.axiomOfChoice hlev
  have hw' : ∀ p ∈ List.range c.vi.format.numPlanes.toNat, process.getD p false = true → (p : Int) < c.vi.format.numPlanes ∧ Wanted planes p := by
    intro p hp hpr'
    have hp := List.mem_range.1 hp
    rw [hpr p (by omega), decide_eq_true_eq] at hpr'
    exact ⟨by omega, hpr'⟩
  rw [levArgs_ok process _ lev _ (fun p hp hpr' => (hlev p (hw' p hp hpr').1 (hw' p hp hpr').2).1), Res.bind_ok] at e
  obtain ⟨m, em⟩ := levTables_bad F ht16 (fun p => if process.getD p false then some (lev p) else none) gamma
    (List.range c.vi.format.numPlanes.toNat) (by
      intro p hp x hx
      split at hx
      · next c1 =>
        injection hx with hx
        subst hx
        obtain ⟨i1, i2⟩ := hw' p hp c1
        obtain ⟨_, j1, j2⟩ := hlev p i1 i2
        rcases (hr p i1 i2).2 with h | h
        · exact Or.inl ⟨j1, j2 ▸ h⟩
        · rw [← j2] at h
          exact Or.inr h
      · cases hx) (by
      obtain ⟨p, i1, i2, h⟩ := he
      rw [← (hlev p i1 i2).2.2] at h
      refine ⟨p, List.mem_range.2 (by omega), lev p, ?_, h⟩
      rw [if_pos (by rw [hpr p (by omega)]; exact decide_eq_true i2)])
  have eTf : tablesFor F c.vi.format ((List.range c.vi.format.numPlanes.toNat).map fun p => if process.getD p false then some (lev p) else none) =
      .err m := by
    unfold tablesFor
    rw [if_pos ht]
    exact em
  rw [eTf] at e
  exact ⟨m, e⟩

/-! ## Examples -/

/-- An arithmetic without rounding. -/
def exL : LFloats :=
  { exFloats with
    pow := fun x _ => x
    pow_zero := fun _ => rfl
    pow_one := fun _ => rfl
    pow_id := fun _ => rfl
    levelsF := fun _ _ _ _ _ _ v => v }

/-- C75: Levels from 100 .. 200 to 50 .. 250 on an 8 bit clip. The numbers are half of the indices, less 500. -/
example : ∃ C, levelsCreate exL 32 (clip1 gray8 4 4 dot Dict.empty).vi [] [1200] [1400] [1100] [1500] [] = .ok C := by
  have one : ∀ (b : Nat) (q : Rat), exFloats.value b = some q → rabs q < 2 ^ 128 → single exL.toFloats b = some q := by
    intro b q h1 h2
    unfold single
    show (match exFloats.value b with
      | none => none
      | some q => if rabs q < 2 ^ 128 then some q else none) = some q
    rw [h1]
    exact if_pos h2
  have rself : ∀ z : Int, RoundsTo z z := by
    intro z
    unfold RoundsTo
    rw [Rat.sub_self, rabs_zero]
    exact ⟨by grind, fun h => by grind⟩
  obtain ⟨C, e, _⟩ := C75_levels exL (Or.inl rfl) (clip1_valid gray8_44 dot Dict.empty) (planes := []) gray8_work rfl (by decide)
    (a := ⟨[1200], [1400], [1100], [1500], []⟩) ⟨by decide, by decide, by decide, by decide, by decide⟩ (r := fun _ => ⟨100, 200, 50, 250⟩)
    (gamma := fun _ => 1) (by
      intro p hp _
      have : p = 0 := by
        have : (p : Int) < 1 := hp
        omega
      subst this
      refine ⟨⟨100, 200, 50, 250, ⟨Or.inr ⟨_, rfl, one _ _ (by decide +kernel) (by decide +kernel)⟩,
        Or.inr ⟨_, rfl, one _ _ (by decide +kernel) (by decide +kernel)⟩, Or.inr ⟨_, rfl, one _ _ (by decide +kernel) (by decide +kernel)⟩,
        Or.inr ⟨_, rfl, one _ _ (by decide +kernel) (by decide +kernel)⟩, Or.inl ⟨rfl, rfl⟩, by decide, by decide⟩,
        rself 100, rself 200, rself 50, rself 250⟩, by decide, by decide +kernel, by decide +kernel⟩)
  exact ⟨C, e⟩

/-- C75: in such a clip 150 becomes 150, and 175 becomes 200. -/
example (res : Nat) (h : LevelsValue exL 255 ⟨100, 200, 50, 250⟩ 1 175 res) : res = 200 := by
  obtain ⟨_, ⟨x, y, h1, h2, _, h3⟩, _⟩ := h
  have h2 := h2 rfl
  subst h2
  have e : ratio ⟨100, 200, 50, 250⟩ 175 = 3 / 4 := by decide +kernel
  rw [e] at h1
  have h1 := rabs_le.1 h1
  have e2 : ((250 - 50 : Int) : Rat) = 200 := rfl
  have e3 : ((50 : Int) : Rat) = 50 := rfl
  dsimp only at h3
  rw [e2, e3, rabs_pos (show (0 : Rat) ≤ y * 200 by grind), rabs_pos (show (0 : Rat) ≤ 50 by decide)] at h3
  have h3 := rabs_le.1 h3
  have e4 : ((255 : Nat) : Rat) = 255 := rfl
  rw [e4] at h3
  have h4 : ((res : Nat) : Rat) < ((201 : Nat) : Rat) := by
    have : ((201 : Nat) : Rat) = 201 := rfl
    grind
  have h5 : ((199 : Nat) : Rat) < ((res : Nat) : Rat) := by
    have : ((199 : Nat) : Rat) = 199 := rfl
    grind
  have h4 : res < 201 := by exact_mod_cast h4
  have h5 : 199 < res := by exact_mod_cast h5
  omega

/-- C75: `max_in` below `min_in` is refused. -/
example : ∃ m, levelsCreate exL 32 (clip1 gray8 4 4 dot Dict.empty).vi [] [1400] [1200] [] [] [] = .err m :=
  C75_refused exL (clip1_valid gray8_44 dot Dict.empty) (a := ⟨[1400], [1200], [], [], []⟩) (Or.inr (Or.inr (Or.inr ⟨0, by decide, by decide, by
    rintro q1 q2 q3 q4 g ⟨h1, h2, _, _, _, h6, _⟩
    rcases h1 with ⟨h, _⟩ | ⟨b, h, h1⟩
    · cases h
    · cases h
      rcases h2 with ⟨h, _⟩ | ⟨b, h, h2⟩
      · cases h
      · cases h
        have e1 : single exL.toFloats 1400 = some 200 := by decide +kernel
        have e2 : single exL.toFloats 1200 = some 100 := by decide +kernel
        rw [e1] at h1
        rw [e2] at h2
        injection h1 with h1
        injection h2 with h2
        subst h1 h2
        exact absurd h6 (by decide)⟩)))

/-! ## A defect -/

/-- An arithmetic whose numbers are -2^127 and 2^127. -/
def hugeL : LFloats :=
  { exL with value := fun b => if b = 0 then some (-2 ^ 127) else some (2 ^ 127) }

/-- C75 fails: all arguments are finite, but the behavior is not defined if the difference of `max_out` and `min_out` is not. -/
theorem C75_defined_refuted : ∃ (F : LFloats) (c : PClip) (a : Args), ValidClip 32 c ∧ Workable c.vi.format ∧ c.vi.format.sampleType = stInteger ∧
    CountOk c.vi.format a ∧ (∀ p : Nat, (p : Int) < c.vi.format.numPlanes → ∃ q1 q2 q3 q4 g, PlaneIs F c.vi.format a p q1 q2 q3 q4 g) ∧
    levelsCreate F 32 c.vi [] a.minIn a.maxIn a.minOut a.maxOut a.gamma = .ub := by
  have h1 : single hugeL.toFloats 0 = some (-(2 : Rat) ^ 127) := by decide +kernel
  have h2 : single hugeL.toFloats 1 = some ((2 : Rat) ^ 127) := by decide +kernel
  have hc : CountOk (clip1 gray8 4 4 dot Dict.empty).vi.format ⟨[], [], [0], [1], []⟩ := ⟨by decide, by decide, by decide, by decide, by decide⟩
  have hpl : PlaneIs hugeL (clip1 gray8 4 4 dot Dict.empty).vi.format ⟨[], [], [0], [1], []⟩ 0 0 255 (-2 ^ 127) (2 ^ 127) 1 :=
    ⟨Or.inl ⟨rfl, rfl⟩, Or.inl ⟨rfl, by decide +kernel⟩, Or.inr ⟨_, rfl, h1⟩, Or.inr ⟨_, rfl, h2⟩, Or.inl ⟨rfl, rfl⟩, by decide, by decide⟩
  refine ⟨hugeL, clip1 gray8 4 4 dot Dict.empty, ⟨[], [], [0], [1], []⟩, clip1_valid gray8_44 dot Dict.empty, gray8_work, rfl, hc, ?_, ?_⟩
  · intro p hp
    have : p = 0 := by
      have : (p : Int) < 1 := hp
      omega
    subst this
    exact ⟨_, _, _, _, _, hpl⟩
  · obtain ⟨process, hpr, e⟩ := create_args hugeL (al := 32) (vi := (clip1 gray8 4 4 dot Dict.empty).vi) gray8_work (planes := []) (by decide) hc
    rw [e]
    have hp0 : process.getD 0 false = true := by rw [hpr 0 (by omega)]; decide
    show (levArgs process _ [0] >>= _) = _
    rw [levArgs_ok process _ (fun _ => ⟨0, 255, -2 ^ 127, 2 ^ 127, inverse hugeL.toFloats 1⟩) [0] (by
      intro p hp _
      have : p = 0 := by simpa using hp
      subst this
      exact plane_ok hugeL hc (by decide) (by omega) hpl), Res.bind_ok]
    rw [List.map_cons, if_pos hp0, List.map_nil]
    have : tablesFor hugeL (clip1 gray8 4 4 dot Dict.empty).vi.format [some ⟨0, 255, -2 ^ 127, 2 ^ 127, inverse hugeL.toFloats 1⟩] = .ub := by
      unfold tablesFor
      rw [if_pos (show (clip1 gray8 4 4 dot Dict.empty).vi.format.sampleType = stInteger from rfl)]
      show levTables hugeL 255 _ = _
      unfold levTables levTable
      dsimp only
      have e0 : levEntry hugeL 255 (roundAway 0) (roundAway 255) (roundAway (-2 ^ 127)) (roundAway (2 ^ 127)) (inverse hugeL.toFloats 1) 0 = .ub := by
        unfold levEntry
        dsimp only
        rw [if_neg (by decide +kernel), if_pos (by decide +kernel)]
      rw [if_neg (by decide +kernel)]
      show (levEntries hugeL 255 _ _ _ _ _ (0 :: _) >>= _) = _
      unfold levEntries
      rw [e0]
      rfl
    rw [this]
    rfl

end VS.Levels
