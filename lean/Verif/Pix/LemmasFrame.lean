import Verif.Pix.Spec
import Verif.Pix.LemmasMem

/-! # Facts about frames and their planes -/

namespace VS.Pix
open VS VS.Format VS.Map VS.Map.Spec VS.Pix.Spec

/-! ## Formats -/

/-- What the filters rely on in a valid format. -/
structure FmtOk (f : VFmt) : Prop where
  bytes : bps f = 1 ∨ bps f = 2 ∨ bps f = 4
  planes : f.numPlanes = 1 ∨ f.numPlanes = 3

theorem fmtOk {f : VFmt} (h : isValidVideoStruct f = true) (hk : f.colorFamily ≠ cfUndefined) : FmtOk f := by
  unfold isValidVideoStruct at h
  rw [if_neg hk] at h
  have hv : isValidVideoFormat f.colorFamily f.sampleType f.bitsPerSample f.subSamplingW f.subSamplingH = true := by
    cases e : isValidVideoFormat f.colorFamily f.sampleType f.bitsPerSample f.subSamplingW f.subSamplingH with
    | true => rfl
    | false => rw [e] at h; exact absurd h (by simp)
  rw [hv] at h
  simp only [Bool.not_true, Bool.false_eq_true, if_false] at h
  have hb : f.bitsPerSample = 8 ∨ (f.bitsPerSample > 8 ∧ f.bitsPerSample ≤ 16) ∨ f.bitsPerSample > 16 := by
    unfold isValidVideoFormat at hv
    rw [if_neg (c := f.colorFamily = cfUndefined ∧ _) (by intro hh; exact hk hh.1)] at hv
    by_cases hb : f.bitsPerSample < 8 ∨ f.bitsPerSample > 32
    · rw [if_pos hb] at hv
      simp at hv
    · omega
  have hc : (if f.colorFamily = cfYUV ∨ f.colorFamily = cfRGB then (3 : Int) else 1) = 1 ∨
      (if f.colorFamily = cfYUV ∨ f.colorFamily = cfRGB then (3 : Int) else 1) = 3 := by
    split <;> simp
  generalize (if f.colorFamily = cfYUV ∨ f.colorFamily = cfRGB then (3 : Int) else 1) = c at h hc
  split at h
  · exact absurd h (by simp)
  rename_i hp
  constructor
  · unfold bps
    split at h
    · exact absurd h (by simp)
    split at h
    · exact absurd h (by simp)
    split at h
    · exact absurd h (by simp)
    omega
  · omega

theorem Spec.Valid.ok {al : Nat} {f : Frm} (h : Valid al f) : FmtOk f.fmt := fmtOk h.fmt h.known

theorem FmtOk.pos {f : VFmt} (h : FmtOk f) : 0 < bps f := by have := h.bytes; omega

/-! ## Strides -/

theorem stride_ge {al : Nat} (h : 0 < al) (f : Frm) (p : Nat) : f.w p * bps f.fmt ≤ f.stride al p := by
  unfold Frm.stride Frame.strideOf
  have h1 := Nat.div_add_mod (f.w p * bps f.fmt + (al - 1)) al
  have h2 := Nat.mod_lt (f.w p * bps f.fmt + (al - 1)) h
  rw [Nat.mul_comm] at h1
  omega

theorem al_dvd_stride (al : Nat) (f : Frm) (p : Nat) : al ∣ f.stride al p := Nat.dvd_mul_left _ _

theorem bps_dvd_stride {al : Nat} {f : Frm} (ok : FmtOk f.fmt) (h : 4 ∣ al) (p : Nat) : bps f.fmt ∣ f.stride al p := by
  have h4 : bps f.fmt ∣ 4 := by
    rcases ok.bytes with e | e | e <;> rw [e] <;> decide
  exact Nat.dvd_trans (Nat.dvd_trans h4 h) (al_dvd_stride al f p)

/-- Strides depend on the format and the width. -/
theorem stride_congr (al : Nat) {f g : Frm} {p q : Nat} (h : f.w p = g.w q) (hb : bps f.fmt = bps g.fmt) :
    f.stride al p = g.stride al q := by
  unfold Frm.stride
  rw [h, hb]

/-- A row ends before the next one starts. -/
theorem row_lt {w b x k : Nat} (hx : x < w) (hk : k < b) : x * b + k < w * b := by
  have : (x + 1) * b ≤ w * b := Nat.mul_le_mul_right _ hx
  rw [Nat.add_mul, Nat.one_mul] at this
  omega

/-- Row `y` of a plane lies inside. -/
theorem row_le {y h s : Nat} (hy : y < h) : y * s + s ≤ s * h := by
  have : (y + 1) * s ≤ h * s := Nat.mul_le_mul_right _ hy
  rw [Nat.add_mul, Nat.one_mul, Nat.mul_comm h] at this
  omega

/-- Different rows do not overlap. -/
theorem row_disj {y z s r c : Nat} (hr : c + r ≤ s) (h : y ≠ z) :
    y * s + c + r ≤ z * s + c ∨ z * s + c + r ≤ y * s + c := by
  rcases Nat.lt_or_gt_of_ne h with h | h
  · left
    have : (y + 1) * s ≤ z * s := Nat.mul_le_mul_right _ h
    rw [Nat.add_mul, Nat.one_mul] at this
    omega
  · right
    have : (z + 1) * s ≤ y * s := Nat.mul_le_mul_right _ h
    rw [Nat.add_mul, Nat.one_mul] at this
    omega

/-- Rows are not overlapped by others, in terms of single bytes. -/
theorem row_unique {y z s i j : Nat} (hi : i < s) (hj : j < s) (h : y * s + i = z * s + j) : y = z ∧ i = j := by
  have e1 : (y * s + i) / s = y := by
    rw [Nat.mul_comm, Nat.mul_add_div (by omega), Nat.div_eq_of_lt hi, Nat.add_zero]
  have e2 : (z * s + j) / s = z := by
    rw [Nat.mul_comm, Nat.mul_add_div (by omega), Nat.div_eq_of_lt hj, Nat.add_zero]
  have : y = z := by rw [← e1, ← e2, h]
  subst this
  exact ⟨rfl, by omega⟩

/-! ## New frames -/

/-- The part of `Valid` that does not depend on memory. -/
structure Geo (f : VFmt) (w h : Nat) : Prop where
  fmt : isValidVideoStruct f = true
  known : f.colorFamily ≠ cfUndefined
  width : 0 < w
  height : 0 < h
  modW : 2 ^ f.subSamplingW.toNat ∣ w
  modH : 2 ^ f.subSamplingH.toNat ∣ h
  row : (w : Int) * bps f ≤ INT_MAX
  rows : (h : Int) ≤ INT_MAX

theorem Spec.Valid.geo {al : Nat} {f : Frm} (h : Valid al f) : Geo f.fmt f.width f.height :=
  ⟨h.fmt, h.known, h.width, h.height, h.modW, h.modH, h.row, h.rows⟩

theorem Geo.valid {al : Nat} {f : Frm} (g : Geo f.fmt f.width f.height) (hc : (f.planes.length : Int) = f.fmt.numPlanes)
    (hs : ∀ p b, f.planes[p]? = some b → b.size = f.stride al p * f.h p) : Valid al f :=
  ⟨g.fmt, g.known, g.width, g.height, g.modW, g.modH, g.row, g.rows, hc, hs⟩

theorem mapPlanes_ok (f : Nat → Buf → Res Buf) (P : Nat → Buf → Prop) (i : Nat) (l : List Buf)
    (h : ∀ p b, l[p]? = some b → ∃ b', f (i + p) b = .ok b' ∧ P (i + p) b') :
    ∃ l', mapPlanes f i l = .ok l' ∧ l'.length = l.length ∧ ∀ p b, l'[p]? = some b → P (i + p) b := by
  induction l generalizing i with
  | nil => exact ⟨[], rfl, rfl, fun p b hb => by simp at hb⟩
  | cons a t ih =>
    obtain ⟨b', e, hP⟩ := h 0 a rfl
    obtain ⟨l', e', hl, hP'⟩ := ih (i + 1) (fun p b hb => by
      have := h (p + 1) b (by simpa using hb)
      rw [show i + 1 + p = i + (p + 1) from by omega]
      exact this)
    refine ⟨b' :: l', ?_, by simp [hl], ?_⟩
    · unfold mapPlanes
      rw [Nat.add_zero] at e
      rw [e, Res.bind_ok, e', Res.bind_ok]
    · intro p b hb
      cases p with
      | zero =>
        simp only [List.getElem?_cons_zero, Option.some.injEq] at hb
        rw [← hb]; exact hP
      | succ p =>
        have := hP' p b (by simpa using hb)
        rw [show i + 1 + p = i + (p + 1) from by omega] at this
        exact this

/-- The picture of a plane. -/
theorem img_px {al : Nat} {f : Frm} {p : Nat} {b : Buf} (h : f.planes[p]? = some b) (x y : Nat) :
    (img al f p).px x y = (List.range (bps f.fmt)).map fun k => b.byte (y * f.stride al p + x * bps f.fmt + k) := by
  unfold img
  simp only [h]

/-- Lists of bytes that agree. -/
theorem range_congr {n : Nat} {f g : Nat → Nat} (h : ∀ k, k < n → f k = g k) :
    (List.range n).map f = (List.range n).map g :=
  List.map_congr_left (fun k hk => h k (List.mem_range.1 hk))

/-- A new frame whose planes are filled by `f` shows the pictures `I`. -/
theorem make_ok {al : Nat} {fmt : VFmt} {w h : Nat} (geo : Geo fmt w h) (props : Dict) (junk : Junk)
    (f : Frm → Nat → Buf → Res Buf) (I : Nat → Img)
    (hw : ∀ p : Nat, (p : Int) < fmt.numPlanes → (I p).w = w / 2 ^ ssw fmt p)
    (hh : ∀ p : Nat, (p : Int) < fmt.numPlanes → (I p).h = h / 2 ^ ssh fmt p)
    (hf : ∀ dst : Frm, dst.fmt = fmt → dst.width = w → dst.height = h → ∀ (p : Nat) b, (p : Int) < fmt.numPlanes →
      b.size = dst.stride al p * dst.h p → ∃ b', f dst p b = .ok b' ∧ b'.size = b.size ∧
        ∀ x y, x < dst.w p → y < dst.h p →
          ((List.range (bps fmt)).map fun k => b'.byte (y * dst.stride al p + x * bps fmt + k)) = (I p).px x y) :
    ∃ g, (newVideoFrame al fmt w h props junk >>= fun dst => dst.build (f dst)) = .ok g ∧ Valid al g ∧ g.fmt = fmt ∧
      g.width = w ∧ g.height = h ∧ g.props = props ∧ ∀ p : Nat, (p : Int) < fmt.numPlanes → (img al g p).Same (I p) := by
  have hn : ¬ ((w : Int) ≤ 0 ∨ (h : Int) ≤ 0) := by have := geo.width; have := geo.height; omega
  unfold newVideoFrame
  rw [if_neg hn, Res.bind_ok]
  simp only [Int.toNat_natCast]
  let f0 : Frm := ⟨fmt, w, h, [], props⟩
  let dst : Frm := ⟨fmt, w, h, (List.range fmt.numPlanes.toNat).map (fun p => ⟨f0.stride al p * f0.h p, junk p⟩), props⟩
  have hnp : fmt.numPlanes = 1 ∨ fmt.numPlanes = 3 := (fmtOk geo.fmt geo.known).planes
  have key := mapPlanes_ok (f dst) (fun p b => (p : Int) < fmt.numPlanes ∧ b.size = dst.stride al p * dst.h p ∧
      ∀ x y, x < dst.w p → y < dst.h p →
          ((List.range (bps fmt)).map fun k => b.byte (y * dst.stride al p + x * bps fmt + k)) = (I p).px x y) 0 dst.planes
    (by
      intro p b hb
      rw [Nat.zero_add]
      have hb' : ((List.range fmt.numPlanes.toNat).map
        (fun p => (⟨f0.stride al p * f0.h p, junk p⟩ : Buf)))[p]? = some b := hb
      rw [List.getElem?_map] at hb'
      obtain ⟨q, hq, rfl⟩ := Option.map_eq_some_iff.1 hb'
      obtain ⟨hq1, hq2⟩ := List.getElem?_eq_some_iff.1 hq
      rw [List.getElem_range] at hq2
      rw [List.length_range] at hq1
      subst hq2
      have hp : ((p : Int) < fmt.numPlanes) := by omega
      obtain ⟨b', e1, e2, e3⟩ := hf dst rfl rfl rfl p ⟨f0.stride al p * f0.h p, junk p⟩ hp rfl
      exact ⟨b', e1, hp, e2, e3⟩)
  obtain ⟨l, e, hl, hP⟩ := key
  refine ⟨{ dst with planes := l }, ?_, ?_, rfl, rfl, rfl, rfl, ?_⟩
  · show dst.build (f dst) = _
    unfold Frm.build
    rw [e]
    rfl
  · refine Geo.valid geo ?_ ?_
    · show (l.length : Int) = fmt.numPlanes
      rw [hl]
      show (((List.range fmt.numPlanes.toNat).map _).length : Int) = _
      simp only [List.length_map, List.length_range]
      omega
    · intro p b hb
      have := (hP p b hb).2.1
      rw [Nat.zero_add] at this
      exact this
  · intro p hp
    refine ⟨(hw p hp).symm, (hh p hp).symm, ?_⟩
    intro x y hx hy
    have hlen : l.length = fmt.numPlanes.toNat := by
      rw [hl]
      show ((List.range fmt.numPlanes.toNat).map _).length = _
      simp
    obtain ⟨b, hb⟩ : ∃ b, l[p]? = some b := ⟨l[p]'(by omega), List.getElem?_eq_getElem _⟩
    rw [img_px (f := { dst with planes := l }) hb]
    have := (hP p b hb).2.2
    rw [Nat.zero_add] at this
    exact this x y hx hy

/-- Planes of a valid frame. -/
theorem Spec.Valid.plane_ok {al : Nat} {f : Frm} (h : Valid al f) {p : Nat} (hp : (p : Int) < f.fmt.numPlanes) :
    ∃ b, f.planes[p]? = some b ∧ f.plane p = .ok b ∧ b.size = f.stride al p * f.h p := by
  have hc := h.count
  have : p < f.planes.length := by omega
  refine ⟨f.planes[p], List.getElem?_eq_getElem this, ?_, h.size p _ (List.getElem?_eq_getElem this)⟩
  unfold Frm.plane
  rw [List.getElem?_eq_getElem this]

theorem mul32_ok {a b : Nat} (h : (a : Int) * b ≤ INT_MAX) : mul32 a b = .ok (a * b) := by
  unfold mul32
  rw [i32_ok ⟨by unfold INT_MIN; omega, by rw [Int.natCast_mul]; exact h⟩, Res.bind_ok, Int.toNat_natCast]

/-- Products for parts of a row. -/
theorem mul32_le {a b w : Nat} (h : (w : Int) * b ≤ INT_MAX) (ha : a ≤ w) : mul32 a b = .ok (a * b) := by
  refine mul32_ok (Int.le_trans ?_ h)
  exact Int.mul_le_mul_of_nonneg_right (by omega) (by omega)

theorem div_le_self' (a s : Nat) : a / 2 ^ s ≤ a := Nat.div_le_self _ _

end VS.Pix
