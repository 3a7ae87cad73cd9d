import Verif.Pixel.Spec
import Verif.Point.LemmasClip

/-! # Lemmas about filters on single samples -/

namespace VS.Pixel
open VS VS.Format VS.Map VS.Map.Spec VS.Pix VS.Pix.Spec VS.Point VS.Point.Spec VS.Pixel.Spec

/-! ## Planes -/

theorem processLoop_sat (name : String) : ∀ (planes : List Int) (l : List Bool),
    processLoop name (planes.map int64ToIntS) l = processLoop name planes l := by
  intro planes
  induction planes with
  | nil => exact fun _ => rfl
  | cons o t ih =>
    intro l
    rw [List.map_cons]
    unfold processLoop
    by_cases h : o < 0 ∨ o ≥ 3
    · rw [if_pos h, if_pos]
      unfold int64ToIntS INT_MAX INT_MIN
      split <;> (try split) <;> omega
    · have e : int64ToIntS o = o := int64ToIntS_of_inI32 (by unfold InI32 INT_MIN INT_MAX; omega)
      rw [e, ih]

theorem getPlanes_eq (name : String) (planes : List Int) : getPlanesArg name planes = getProcessPlanesArg name planes :=
  processLoop_sat name planes _

/-! ## Frames -/

theorem pixKind_ok {f : VFmt} (h : isValidVideoStruct f = true) (hw : Workable f) :
    ∃ k, pixKind f = some k ∧ k.bytes = bps f ∧ KindOk f k := by
  obtain ⟨k, hk, hkb, hko⟩ := kind_ok h hw
  refine ⟨k, ?_, hkb, hko⟩
  have n1 : (stFloat : Int) ≠ stInteger := by decide
  have hb := (fmtOk h hw.1).bytes
  unfold bps at hkb hb
  unfold pixKind
  cases k with
  | byte => rw [if_pos (by have : f.bytesPerSample.toNat = 1 := hkb.symm; omega)]
  | word =>
    have : f.bytesPerSample.toNat = 2 := hkb.symm
    rw [if_neg (by omega), if_pos ⟨hko.1, by omega⟩]
  | half =>
    have : f.bytesPerSample.toNat = 2 := hkb.symm
    rw [if_neg (by omega), if_neg (by rw [hko.1]; exact fun c => n1 c.1), if_pos (by omega)]
  | single =>
    have : f.bytesPerSample.toNat = 4 := hkb.symm
    rw [if_neg (by omega), if_neg (by omega), if_neg (by omega), if_pos (by omega)]

/-- One frame. -/
theorem pixFrame_ok {al : Nat} (hal : 0 < al) (name : String) (op : Kind → VFmt → Nat → Nat → Nat) {s1 : Frm} (v1 : Valid al s1)
    (hw : Workable s1.fmt) (process : List Bool) (junk : Junk) :
    ∃ k, KindOk s1.fmt k ∧ ∃ g, pixFrame al name op process s1 junk = .ok g ∧ Valid al g ∧ g.fmt = s1.fmt ∧ g.width = s1.width ∧
      g.height = s1.height ∧ g.props = s1.props ∧
      ∀ p x y : Nat, (p : Int) < s1.fmt.numPlanes → x < g.w p → y < g.h p →
        smp al g p x y = if process.getD p false then op k s1.fmt p (smp al s1 p x y) % 256 ^ bps s1.fmt else smp al s1 p x y := by
  obtain ⟨k, hk, hkb, hko⟩ := pixKind_ok v1.fmt hw
  refine ⟨k, hko, ?_⟩
  unfold pixFrame
  rw [(workable_iff _).2 hw, if_neg (by decide)]
  refine flags_ok v1 rfl (fun p => process.getD p false) _ (fun p x y => op k s1.fmt p (smp al s1 p x y)) s1.props junk ?_
  intro p b hp _ hsz
  have hc := v1.count
  obtain ⟨b1, e1⟩ : ∃ b, s1.planes[p]? = some b := ⟨_, List.getElem?_eq_getElem (by omega)⟩
  have hpl : s1.plane p = .ok b1 := by unfold Frm.plane; rw [e1]
  unfold pixPlane
  rw [hpl, Res.bind_ok, hk]
  dsimp only
  rw [hkb]
  exact fill_ok (G := fun x y => op k s1.fmt p (smp al s1 p x y)) (stride_ge hal s1 p) (by
    intro x y hx hy
    rw [rd_smp hal v1 e1 hx hy, Res.bind_ok]) hsz

/-- The result of a filter. -/
theorem pix_gives {al : Nat} (hal : AlignOk al) (name : String) (op : Kind → VFmt → Nat → Nat → Nat) {c : PClip}
    (hv : ValidClip al c) {planes : List Int} {process : List Bool}
    (hpr : ∀ p : Nat, p < 3 → process.getD p false = decide (Wanted planes p)) {n : Nat} {f : Frm} (hf : at? c n = some f)
    (hw : Workable f.fmt) {S : Nat → Nat → Nat → Int}
    (hS : ∀ k, KindOk f.fmt k → ∀ p x y : Nat, (p : Int) < f.fmt.numPlanes →
      ((op k f.fmt p (smp al f p x y) % 256 ^ bps f.fmt : Nat) : Int) = S p x y) :
    Gives al (.filter (pixFilter al name c.vi op process)) [c] n f.fmt f.width f.height f.props fun p x y =>
      if Wanted planes p then S p x y else smp al f p x y := by
  intro junk
  have va := hv.frames f (at_mem hf)
  obtain ⟨k, hk, g, e, v, g1, g2, g3, g4, g5⟩ := pixFrame_ok (align_pos hal) name op va hw process junk
  have hnp := (fmtOk va.fmt va.known).planes
  refine ⟨g, frame_ok ?_ (fun hc => by rw [g1]; exact hv.fmt f (at_mem hf) hc) (fun hc => by rw [g2, g3]; exact hv.size f (at_mem hf) hc),
    v, g1, g2, g3, g4, ?_⟩
  · show (getFrameFilter [c] [(0, n)] 0 n >>= fun s1 => pixFrame al name op process s1 junk) = _
    rw [get_ok (i := 0) rfl hv (by simp) hf, Res.bind_ok, e]
  · intro p x y hp hx hy
    rw [g5 p x y hp hx hy, hpr p (by omega)]
    dsimp only
    by_cases w : Wanted planes p
    · rw [decide_eq_true w, if_pos rfl, if_pos w]
      exact hS k hk p x y hp
    · rw [decide_eq_false w, if_neg w]; rfl

/-! ## Arguments for each plane -/

variable (F : Floats)

theorem range_ok (name arg : String) {f : VFmt} (hn : f.numPlanes ≤ 3) {vals : List Nat} (hl : (vals.length : Int) ≤ f.numPlanes)
    (mode : Mode) (mask : Bool) (hv : ∀ b ∈ vals, ∃ v, rangeGiven F name arg f b = .ok v) :
    ∃ l, rangeArgs F name arg f vals mode mask = .ok l ∧ ∀ p, p < 3 →
      (vals = [] ∧ l.getD p (0, 0) = rangeDefault F f mode (decide (Centered f mask p))) ∨
      ∃ b, element vals p = some b ∧ b ∈ vals ∧ rangeGiven F name arg f b = .ok (l.getD p (0, 0)) := by
  unfold rangeArgs
  rw [if_neg (by omega)]
  match vals, (show vals.length ≤ 3 by omega), hv with
  | [], _, _ =>
    refine ⟨_, rfl, ?_⟩
    intro p hp
    left
    refine ⟨rfl, ?_⟩
    have cen : ∀ p : Nat, (!mask && decide (p > 0) && decide (f.colorFamily = cfYUV)) = decide (Centered f mask p) := by
      intro p
      unfold Centered
      cases mask <;> by_cases h : 0 < p <;> by_cases h' : f.colorFamily = cfYUV <;> simp [h, h']
    match p, hp with
    | 0, _ => rw [← cen]; rfl
    | 1, _ => rw [← cen]; rfl
    | 2, _ => rw [← cen]; rfl
  | [a], _, hv =>
    obtain ⟨v, e⟩ := hv a (by simp)
    refine ⟨[v, v, v], ?_, ?_⟩
    · simp only [rangeLoop, e, Res.bind_ok, Option.getD]
    · intro p hp
      right
      match p, hp with
      | 0, _ => exact ⟨a, rfl, by simp, e⟩
      | 1, _ => exact ⟨a, rfl, by simp, e⟩
      | 2, _ => exact ⟨a, rfl, by simp, e⟩
  | [a, b], _, hv =>
    obtain ⟨v, e⟩ := hv a (by simp)
    obtain ⟨v', e'⟩ := hv b (by simp)
    refine ⟨[v, v', v'], ?_, ?_⟩
    · simp only [rangeLoop, e, e', Res.bind_ok, Option.getD]
    · intro p hp
      right
      match p, hp with
      | 0, _ => exact ⟨a, rfl, by simp, e⟩
      | 1, _ => exact ⟨b, rfl, by simp, e'⟩
      | 2, _ => exact ⟨b, rfl, by simp, e'⟩
  | [a, b, c], _, hv =>
    obtain ⟨v, e⟩ := hv a (by simp)
    obtain ⟨v', e'⟩ := hv b (by simp)
    obtain ⟨v2, e2⟩ := hv c (by simp)
    refine ⟨[v, v', v2], ?_, ?_⟩
    · simp only [rangeLoop, e, e', e2, Res.bind_ok]
    · intro p hp
      right
      match p, hp with
      | 0, _ => exact ⟨a, rfl, by simp, e⟩
      | 1, _ => exact ⟨b, rfl, by simp, e'⟩
      | 2, _ => exact ⟨c, rfl, by simp, e2⟩

theorem range_bad (name arg : String) {f : VFmt} (hn : f.numPlanes ≤ 3) {vals : List Nat} (mode : Mode) (mask : Bool)
    (hv : ∀ b ∈ vals, (∃ v, rangeGiven F name arg f b = .ok v) ∨ ∃ m, rangeGiven F name arg f b = .err m)
    (h : f.numPlanes < vals.length ∨ ∃ b ∈ vals, ∃ m, rangeGiven F name arg f b = .err m) :
    ∃ m, rangeArgs F name arg f vals mode mask = .err m := by
  unfold rangeArgs
  by_cases c : (vals.length : Int) > f.numPlanes
  · rw [if_pos c]; exact ⟨_, rfl⟩
  · rw [if_neg c]
    have h := h.resolve_left (by omega)
    have key : ∀ (k : Nat) (vals : List Nat) (p : Nat) (prev : Option (Nat × Nat)), vals.length ≤ k →
        (∀ b ∈ vals, (∃ v, rangeGiven F name arg f b = .ok v) ∨ ∃ m, rangeGiven F name arg f b = .err m) →
        (∃ b ∈ vals, ∃ m, rangeGiven F name arg f b = .err m) → ∃ m, rangeLoop F name arg f mode mask k p prev vals = .err m := by
      intro k
      induction k with
      | zero =>
        rintro vals p prev hl _ ⟨b, hb, _⟩
        have e : vals = [] := List.length_eq_zero_iff.1 (by omega)
        rw [e] at hb
        simp at hb
      | succ k ih =>
        intro vals p prev hl hv h
        cases vals with
        | nil => obtain ⟨b, hb, _⟩ := h; simp at hb
        | cons a t =>
          unfold rangeLoop
          rcases hv a (by simp) with ⟨v, e⟩ | ⟨m, e⟩
          · rw [e, Res.bind_ok]
            obtain ⟨b, hb, m, e'⟩ := h
            rcases List.mem_cons.1 hb with rfl | hb
            · rw [e] at e'; cases e'
            · obtain ⟨m, e⟩ := ih t (p + 1) (some v) (by simpa using hl) (fun b hb => hv b (by simp [hb])) ⟨b, hb, m, e'⟩
              rw [e]
              exact ⟨m, rfl⟩
          · rw [e]; exact ⟨m, rfl⟩
    exact key 3 vals 0 none (by omega) hv h

theorem rabs_le {q a : Rat} : rabs q ≤ a ↔ -a ≤ q ∧ q ≤ a := by
  unfold rabs
  split <;> constructor <;> intro h <;> grind

theorem trunc_pos {r : Rat} (h : 0 ≤ r) : r.num.tdiv r.den = r.floor := by
  have := Rat.num_nonneg.2 h
  rw [Int.tdiv_eq_ediv_of_nonneg this]
  unfold Rat.floor
  split
  · next e => rw [e]; simp
  · rfl

/-- A sample as argument. -/
theorem given_int (name arg : String) {f : VFmt} (ht : f.sampleType = stInteger) (h16 : f.bitsPerSample ≤ 16) {b : Nat} {q : Rat}
    (hq : F.value b = some q) (h0 : 0 ≤ q) (h1 : q ≤ top f) :
    ∃ v, rangeGiven F name arg f b = .ok (v, 0) ∧ v ≤ top f ∧ Near q v := by
  obtain ⟨r, hr, hc⟩ := F.half_close b q hq
  have hp : 2 ^ f.bitsPerSample.toNat ≤ 2 ^ 16 := Nat.pow_le_pow_right (by decide) (by omega)
  have hp0 := Nat.pow_pos (n := f.bitsPerSample.toNat) (show 0 < 2 by decide)
  have htop : (top f : Rat) ≤ 65535 := by
    have : top f ≤ 65535 := by unfold top; omega
    have : (top f : Rat) ≤ ((65535 : Nat) : Rat) := by exact_mod_cast this
    grind
  have e1 : rabs (q + 1 / 2) = q + 1 / 2 := by unfold rabs; rw [if_neg (by grind)]
  rw [e1] at hc
  have hc2 : rabs (r - (q + 1 / 2)) ≤ 1 / 2 ^ 30 := by grind
  rw [rabs_le] at hc2
  have hr0 : 0 ≤ r := by grind
  have hf1 := Rat.floor_le r
  have hf2 := Rat.lt_floor_add_one r
  have hfl0 : 0 ≤ r.floor := by
    have := (Rat.le_floor_iff (x := 0) (a := r)).2 (by simpa using hr0)
    exact this
  have hflt : r.floor ≤ top f := by
    have : (r.floor : Rat) < (top f : Rat) + 1 := by grind
    have : (r.floor : Rat) < (((top f : Nat) : Int) + 1 : Int) := by
      rw [Rat.intCast_add]
      exact this
    have := Rat.intCast_lt_intCast.1 this
    omega
  refine ⟨r.floor.toNat, ?_, by omega, ?_⟩
  · unfold rangeGiven
    rw [if_pos ht, hr]
    unfold toI64
    dsimp only
    rw [if_pos ⟨by grind, by grind⟩, Res.bind_ok, trunc_pos hr0, if_neg]
    · have : r.floor.toNat < 65536 := by unfold top at hflt; omega
      rw [Nat.mod_eq_of_lt this]
    · have : ((2 : Int) ^ f.bitsPerSample.toNat - 1) = top f := by
        unfold top
        rw [Int.ofNat_sub (by omega)]
        push_cast
        rfl
      omega
  · have : ((r.floor.toNat : Nat) : Rat) = (r.floor : Rat) := by
      have : ((r.floor.toNat : Nat) : Int) = r.floor := by omega
      rw [← this]
      rfl
    unfold Near
    rw [rabs_le, this]
    constructor <;> grind

/-- A number that is not a sample. -/
theorem given_bad (name arg : String) {f : VFmt} (ht : f.sampleType = stInteger) (h16 : f.bitsPerSample ≤ 16) {b : Nat} {q : Rat}
    (hq : F.value b = some q) (h0 : -2 ^ 62 ≤ q) (h1 : q ≤ 2 ^ 62) (h : q ≤ -2 ∨ (top f : Rat) + 1 ≤ q) :
    ∃ m, rangeGiven F name arg f b = .err m := by
  obtain ⟨r, hr, hc⟩ := F.half_close b q hq
  have hp0 := Nat.pow_pos (n := f.bitsPerSample.toNat) (show 0 < 2 by decide)
  have hp : 2 ^ f.bitsPerSample.toNat ≤ 2 ^ 16 := Nat.pow_le_pow_right (by decide) (by omega)
  have htop : ((2 : Int) ^ f.bitsPerSample.toNat - 1) = top f := by
    unfold top
    rw [Int.ofNat_sub (by omega)]
    push_cast
    rfl
  unfold rangeGiven
  rw [if_pos ht, hr]
  unfold toI64
  dsimp only
  have htop1 : (top f : Rat) ≤ 65535 := by
    have : top f ≤ 65535 := by unfold top; omega
    have : (top f : Rat) ≤ ((65535 : Nat) : Rat) := by exact_mod_cast this
    grind
  have htop0 : (0 : Rat) ≤ (top f : Rat) := by exact_mod_cast Nat.zero_le _
  rcases h with h | h
  · have e1 : rabs (q + 1 / 2) = -(q + 1 / 2) := by unfold rabs; rw [if_pos (by grind)]
    have hc2 : rabs (r - (q + 1 / 2)) ≤ -(q + 1 / 2) / 2 ^ 53 := by grind
    rw [rabs_le] at hc2
    have hr1 : r ≤ -1 := by grind
    rw [if_pos ⟨by grind, by grind⟩, Res.bind_ok, if_pos]
    · exact ⟨_, rfl⟩
    · left
      have hd : (0 : Int) < r.den := by have := r.den_pos; omega
      have hn : r.num ≤ -r.den := by
        have h2 : r.num * 1 ≤ -1 * r.den := (Rat.le_iff r (-1)).1 hr1
        omega
      have h3 : r.num.tdiv r.den = -((-r.num).tdiv r.den) := by rw [Int.neg_tdiv, Int.neg_neg]
      have h4 : 1 ≤ (-r.num).tdiv r.den := by
        rw [Int.tdiv_eq_ediv_of_nonneg (by omega)]
        exact Int.le_ediv_of_mul_le hd (by omega)
      omega
  · have e1 : rabs (q + 1 / 2) = q + 1 / 2 := by unfold rabs; rw [if_neg (by grind)]
    have hc2 : rabs (r - (q + 1 / 2)) ≤ (q + 1 / 2) / 2 ^ 53 := by grind
    rw [rabs_le] at hc2
    have hr1 : (top f : Rat) + 1 ≤ r := by grind
    rw [if_pos ⟨by grind, by grind⟩, Res.bind_ok, if_pos]
    · exact ⟨_, rfl⟩
    · right
      rw [trunc_pos (by grind), htop]
      have h3 : (((top f + 1 : Nat) : Int) : Rat) ≤ r := by
        have : (((top f + 1 : Nat) : Int) : Rat) = (top f : Rat) + 1 := by
          rw [Int.natCast_add, Rat.intCast_add]
          rfl
        rw [this]
        exact hr1
      have := (Rat.le_floor_iff (x := ((top f + 1 : Nat) : Int)) (a := r)).2 h3
      omega

theorem int_kind {f : VFmt} {k : Kind} (h : KindOk f k) (ht : f.sampleType = stInteger) :
    top f < 256 ^ bps f ∧ ((k = .byte ∧ bps f = 1 ∧ f.bitsPerSample = 8) ∨ (k = .word ∧ bps f = 2)) := by
  have n1 : (stFloat : Int) ≠ stInteger := by decide
  unfold top
  cases k with
  | byte => rw [h.2.1, h.2.2]; exact ⟨by decide, Or.inl ⟨rfl, rfl, rfl⟩⟩
  | word =>
    obtain ⟨_, h1, h2, h3⟩ := h
    rw [h3]
    have : 2 ^ f.bitsPerSample.toNat ≤ 2 ^ 16 := Nat.pow_le_pow_right (by decide) (by omega)
    have := Nat.pow_pos (n := f.bitsPerSample.toNat) (show 0 < 2 by decide)
    refine ⟨?_, Or.inr ⟨rfl, rfl⟩⟩
    show _ < 65536
    omega
  | single => exact absurd (h.1.symm.trans ht) n1
  | half => exact absurd (h.1.symm.trans ht) n1

theorem float_kind {f : VFmt} {k : Kind} (h : KindOk f k) (ht : f.sampleType = stFloat) : k = floatKind f ∧ (k = .single ∨ k = .half) := by
  have n1 : (stFloat : Int) ≠ stInteger := by decide
  unfold floatKind
  cases k with
  | byte => exact absurd (ht.symm.trans h.1) n1
  | word => exact absurd (ht.symm.trans h.1) n1
  | single => rw [if_pos h.2.1]; exact ⟨rfl, Or.inl rfl⟩
  | half => rw [if_neg (by rw [h.2.1]; decide)]; exact ⟨rfl, Or.inr rfl⟩

theorem small_depth {f : VFmt} (h : isValidVideoStruct f = true) (hw : Workable f) (ht : f.sampleType = stInteger) :
    8 ≤ f.bitsPerSample := by
  obtain ⟨k, _, hk⟩ := pixKind_ok h hw
  rcases (int_kind hk.2 ht).2 with ⟨rfl, _, e⟩ | ⟨rfl, _⟩
  · omega
  · have := hk.2.2.1
    omega

end VS.Pixel
