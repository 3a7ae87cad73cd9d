import Verif.Pem.Spec
import Verif.Half.Props
import Verif.Average.Props

/-! # PEMVerifier: loops, floats and bounds -/

namespace VS.Pem
open VS VS.Format VS.Map VS.Map.Spec VS.Pix VS.Pix.Spec VS.Point VS.Point.Spec VS.Gain VS.Generic.Spec VS.Pem.Spec

variable (F : PFloats)

/-! ## Loops that only check -/

theorem from_all {f : Nat → Unit → Res Unit} : ∀ (n i : Nat), (∀ j, i ≤ j → j < i + n → f j () = .ok ()) → forFrom f 1 i n () = .ok ()
  | 0, _, _ => rfl
  | n + 1, i, h => by
    show (f i () >>= fun b => forFrom f 1 (i + 1) n b) = _
    rw [h i (Nat.le_refl i) (by omega), Res.bind_ok]
    exact from_all n (i + 1) (fun j h1 h2 => h j (by omega) (by omega))

theorem from_first {f : Nat → Unit → Res Unit} {k : Nat} {m : String} (he : f k () = .err m) :
    ∀ (n i : Nat), i ≤ k → k < i + n → (∀ j, i ≤ j → j < k → f j () = .ok ()) → forFrom f 1 i n () = .err m
  | 0, _, h1, h2, _ => by omega
  | n + 1, i, h1, h2, h => by
    show (f i () >>= fun b => forFrom f 1 (i + 1) n b) = _
    by_cases c : i = k
    · rw [c, he, Res.bind_err]
    · rw [h i (Nat.le_refl i) (by omega), Res.bind_ok]
      exact from_first he n (i + 1) (by omega) (by omega) (fun j h1 h2 => h j (by omega) (by omega))

theorem forN_all {f : Nat → Unit → Res Unit} {n : Nat} (h : ∀ j, j < n → f j () = .ok ()) : forN f n () = .ok () :=
  from_all n 0 (fun j _ h2 => h j (by omega))

theorem forN_first {f : Nat → Unit → Res Unit} {n k : Nat} {m : String} (hk : k < n) (he : f k () = .err m)
    (h : ∀ j, j < k → f j () = .ok ()) : forN f n () = .err m :=
  from_first he n 0 (Nat.zero_le k) (by omega) (fun j _ h2 => h j h2)

/-! ## Frames -/

theorem sizeKind_eq {f : VFmt} (h : isValidVideoStruct f = true) (hw : Workable f) :
    ∃ k, sizeKind f = some k ∧ k.bytes = bps f ∧ KindOk f k := by
  obtain ⟨k, _, hkb, hko⟩ := kind_ok h hw
  refine ⟨k, ?_, hkb, hko⟩
  unfold sizeKind
  unfold KindOk bps at hko
  cases k <;> dsimp only at hko
  · rw [if_pos (by omega)]
  · rw [if_neg (by omega), if_pos (by omega), if_neg (by rw [hko.1]; decide)]
  · rw [if_neg (by omega), if_neg (by omega), if_pos (by omega)]
  · rw [if_neg (by omega), if_pos (by omega), if_pos hko.1]

theorem plane_get {al : Nat} {f : Frm} (hv : Valid al f) {p : Nat} (hp : (p : Int) < f.fmt.numPlanes) :
    ∃ b, f.planes[p]? = some b ∧ f.plane p = .ok b := by
  have hc := hv.count
  have hl : p < f.planes.length := by omega
  refine ⟨f.planes[p], List.getElem?_eq_getElem hl, ?_⟩
  unfold Frm.plane
  rw [List.getElem?_eq_getElem hl]

/-- The rows of a plane with the samples. -/
theorem plane_eq {al : Nat} (ha : 0 < al) {f : Frm} (hv : Valid al f) {k : Kind} (hk : sizeKind f.fmt = some k) (hkb : k.bytes = bps f.fmt)
    (n : Nat) (bounds : Nat → Bounds) {p : Nat} (hp : (p : Int) < f.fmt.numPlanes) :
    ∃ cell : Nat → Nat → Res Unit, verifyPlane F al n bounds f p = forN (fun y _ => forN (fun x _ => cell x y) (f.w p) ()) (f.h p) () ∧
      ∀ x y, x < f.w p → y < f.h p → cell x y = match badSample F k (bounds p) (smp al f p x y) with
        | some t => .err (message t p y x n)
        | none => .ok () := by
  obtain ⟨b, h1, h2⟩ := plane_get hv hp
  refine ⟨fun x y => (rd b k.bytes (y * f.stride al p + x * k.bytes : Nat) >>= fun v => match badSample F k (bounds p) v with
        | some t => .err (message t p y x n)
        | none => .ok ()), ?_, ?_⟩
  · unfold verifyPlane
    rw [h2, Res.bind_ok, hk]
    rfl
  · intro x y hx hy
    rw [hkb]
    have := rd_smp ha hv h1 hx hy
    dsimp only
    rw [this, Res.bind_ok]

theorem plane_pass {al : Nat} (ha : 0 < al) {f : Frm} (hv : Valid al f) {k : Kind} (hk : sizeKind f.fmt = some k) (hkb : k.bytes = bps f.fmt)
    {n : Nat} {bounds : Nat → Bounds} {p : Nat} (hp : (p : Int) < f.fmt.numPlanes)
    (h : ∀ x y, x < f.w p → y < f.h p → badSample F k (bounds p) (smp al f p x y) = none) : verifyPlane F al n bounds f p = .ok () := by
  obtain ⟨cell, e, hc⟩ := plane_eq F ha hv hk hkb n bounds hp
  rw [e]
  refine forN_all fun y hy => forN_all fun x hx => ?_
  rw [hc x y hx hy, h x y hx hy]

theorem plane_fail {al : Nat} (ha : 0 < al) {f : Frm} (hv : Valid al f) {k : Kind} (hk : sizeKind f.fmt = some k) (hkb : k.bytes = bps f.fmt)
    {n : Nat} {bounds : Nat → Bounds} {p : Nat} (hp : (p : Int) < f.fmt.numPlanes) {x y : Nat} (hx : x < f.w p) (hy : y < f.h p) {t : String}
    (hb : badSample F k (bounds p) (smp al f p x y) = some t)
    (h : ∀ x' y', x' < f.w p → y' < f.h p → (y' < y ∨ y' = y ∧ x' < x) → badSample F k (bounds p) (smp al f p x' y') = none) :
    verifyPlane F al n bounds f p = .err (message t p y x n) := by
  obtain ⟨cell, e, hc⟩ := plane_eq F ha hv hk hkb n bounds hp
  rw [e]
  refine forN_first hy (forN_first hx ?_ ?_) ?_
  · rw [hc x y hx hy, hb]
  · intro x' hx'
    rw [hc x' y (by omega) hy, h x' y (by omega) hy (Or.inr ⟨rfl, hx'⟩)]
  · intro y' hy'
    refine forN_all fun x' hx' => ?_
    rw [hc x' y' hx' (by omega), h x' y' hx' (by omega) (Or.inl hy')]

theorem message_eq (t : String) (p y x n : Nat) :
    message t p y x n = s!"PEMVerifier: Illegal sample value ({t}) at: plane: {p} Y: {y}, X: {x}, Frame: {n}" := by
  unfold message
  simp [toString, String.append_assoc]

/-- The frames of a filter with some bounds. -/
theorem verifies_of {al : Nat} (ha : 0 < al) {c : PClip} (hv : ValidClip al c) (hw : Workable c.vi.format) {bounds : Nat → Bounds}
    {Legal : Nat → Nat → Prop} {text : Nat → String} {k : Kind} (hk : sizeKind c.vi.format = some k) (hkb : k.bytes = bps c.vi.format)
    (h : ∀ (p v : Nat), (p : Int) < c.vi.format.numPlanes → v < 256 ^ bps c.vi.format →
      (Legal p v → badSample F k (bounds p) v = none) ∧ (¬ Legal p v → badSample F k (bounds p) v = some (text v))) :
    Verifies al (.filter (pemFilter F al c.vi bounds)) c Legal text := by
  intro n f hf junk
  have hn : n < c.frames.length := (List.getElem?_eq_some_iff.1 hf).1
  have ha' : at? c n = some f := by
    unfold at?
    rw [show min n (c.frames.length - 1) = n by omega]
    exact hf
  have hfm := hv.fmt f (at_mem ha') hw.1
  have hvf := hv.frames f (at_mem ha')
  have hs : ∀ p x y, smp al f p x y < 256 ^ bps c.vi.format := fun p x y => by
    have := smp_lt (al := al) f p x y
    rw [hfm] at this
    exact this
  rw [← hfm] at hk hkb h
  rw [← hfm] at hs
  have run : (pemFilter F al c.vi bounds).ready n (getFrameFilter [c] ((pemFilter F al c.vi bounds).reqs n)) junk =
      (forN (fun p _ => verifyPlane F al n bounds f p) f.fmt.numPlanes.toNat () >>= fun _ => .ok f) := by
    show (getFrameFilter [c] [(0, n)] 0 n >>= fun s => _) = _
    rw [get_ok (i := 0) rfl hv (List.mem_singleton.2 rfl) ha', Res.bind_ok]
  constructor
  · intro hl
    refine frame_ok ?_ (fun hc => hv.fmt f (at_mem ha') hc) (fun hc => hv.size f (at_mem ha') hc)
    rw [run, forN_all, Res.bind_ok]
    intro p hp
    have hp' : (p : Int) < f.fmt.numPlanes := by omega
    exact plane_pass F ha hvf hk hkb hp' fun x y hx hy => (h p _ hp' (hs p x y)).1 (hl p x y ⟨hp', hx, hy⟩)
  · intro p x y hpl hbad hbef
    obtain ⟨hp, hx, hy⟩ := hpl
    refine frame_err ?_
    rw [run, forN_first (k := p) (by omega) (m := message (text (smp al f p x y)) p y x n), Res.bind_err, message_eq]
    · exact plane_fail F ha hvf hk hkb hp hx hy ((h p _ hp (hs p x y)).2 hbad) fun x' y' hx' hy' ho =>
        (h p _ hp (hs p x' y')).1 (hbef p x' y' ⟨hp, hx', hy'⟩ (Or.inr ⟨rfl, ho⟩))
    · intro p' hp'
      have hq : (p' : Int) < f.fmt.numPlanes := by omega
      exact plane_pass F ha hvf hk hkb hq fun x' y' hx' hy' => (h p' _ hq (hs p' x' y')).1 (hbef p' x' y' ⟨hq, hx', hy'⟩ (Or.inl hp'))

/-! ## Floats -/

open VS.Half VS.Half.Spec in
theorem f32_value {x : Nat} (hx : single.Bits x) (hf : single.Finite x) : Resample.f32 (x : Nat) = .fin (single.value x) := by
  obtain ⟨s, f, hs, hf', rfl⟩ := split32 hx
  rw [finite32 hf'] at hf
  rw [value32 hf']
  unfold Resample.f32
  have e1 : ((s * 2 ^ 31 + f : Nat) : Int).toNat % 2 ^ 32 = s * 2 ^ 31 + f := by omega
  have e2 : (s * 2 ^ 31 + f) / 2 ^ 23 % 256 = f / 2 ^ 23 := by omega
  have e3 : (s * 2 ^ 31 + f) % 2 ^ 23 = f % 2 ^ 23 := by omega
  have e4 : (s * 2 ^ 31 + f) / 2 ^ 31 % 2 = s := by omega
  dsimp only
  rw [e1, e2, e3, e4, if_neg (by omega)]
  congr 1
  unfold mag sg
  have key : (if f / 2 ^ 23 = 0 then ((f % 2 ^ 23 : Nat) : Rat) / 2 ^ 149
      else if f / 2 ^ 23 < 150 then (2 ^ 23 + ((f % 2 ^ 23 : Nat) : Rat)) / 2 ^ (150 - f / 2 ^ 23)
      else (2 ^ 23 + ((f % 2 ^ 23 : Nat) : Rat)) * 2 ^ (f / 2 ^ 23 - 150)) =
      ((if f / 2 ^ 23 = 0 then f else (2 ^ 23 + f % 2 ^ 23) * 2 ^ (f / 2 ^ 23 - 1) : Nat) : Rat) / 2 ^ 149 := by
    by_cases h : f / 2 ^ 23 = 0
    · rw [if_pos h, if_pos h, show f % 2 ^ 23 = f by omega]
    · rw [if_neg h, if_neg h]
      generalize f % 2 ^ 23 = m
      generalize f / 2 ^ 23 = e at h
      push_cast
      by_cases h2 : e < 150
      · rw [if_pos h2]
        obtain ⟨d, hd⟩ : ∃ d, 150 = e + d := ⟨150 - e, by omega⟩
        have : (2 : Rat) ^ 149 = 2 ^ (e - 1) * 2 ^ (150 - e) := by rw [← pow_add]; congr 1; omega
        rw [this, div_eq_div_iff (by positivity) (by positivity)]
        ring
      · rw [if_neg h2, eq_div_iff (by positivity), mul_assoc, ← pow_add]
        congr 2
        omega
  rw [key]
  generalize (if f / 2 ^ 23 = 0 then f else (2 ^ 23 + f % 2 ^ 23) * 2 ^ (f / 2 ^ 23 - 1) : Nat) = a
  by_cases h : s = 1
  · rw [if_pos h, if_pos h]
    push_cast
    ring
  · rw [if_neg h, if_neg h]
    push_cast
    ring

open VS.Half VS.Half.Spec in
theorem f32_other {x : Nat} (hx : single.Bits x) (hf : ¬ single.Finite x) : isFinite (Resample.f32 (x : Nat)) = false := by
  obtain ⟨s, f, hs, hf', rfl⟩ := split32 hx
  rw [finite32 hf'] at hf
  unfold Resample.f32
  have e1 : ((s * 2 ^ 31 + f : Nat) : Int).toNat % 2 ^ 32 = s * 2 ^ 31 + f := by omega
  have e2 : (s * 2 ^ 31 + f) / 2 ^ 23 % 256 = 255 := by omega
  dsimp only
  rw [e1, e2, if_pos rfl]
  split <;> rfl

theorem lt_lower {b : Dbl} {q : Rat} : lt (.fin q) b = false ↔ AtLeast b q := by
  cases b <;> simp [lt, AtLeast]

theorem lt_upper {b : Dbl} {q : Rat} : lt b (.fin q) = false ↔ AtMost b q := by
  cases b <;> simp [lt, AtMost]

theorem lt_crossed {a b : Dbl} : lt b a = true ↔ Crossed a b := by
  cases a <;> cases b <;> simp [lt, Crossed]
  exact And.comm

theorem badFloat_fin {b : Bounds} {q : Rat} :
    badFloat F b (.fin q) = none ↔ AtLeast b.lowerf q ∧ AtMost b.upperf q := by
  unfold badFloat
  rw [← lt_lower, ← lt_upper]
  cases lt (.fin q) b.lowerf <;> cases lt b.upperf (.fin q) <;> simp [isFinite]

theorem badFloat_some {b : Bounds} {x : Dbl} (h : badFloat F b x ≠ none) : badFloat F b x = some (F.text x) := by
  unfold badFloat at *
  split at h
  · rw [if_pos (by assumption)]
  · exact absurd rfl h

end VS.Pem
