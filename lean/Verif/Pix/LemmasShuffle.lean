import Verif.Pix.LemmasCreate
import Verif.Format.Props

/-! # Facts about ShufflePlanes -/

namespace VS.Pix
open VS VS.Format VS.Map VS.Map.Spec VS.Pix.Spec

/-- A plane that can be taken as plane `i` of a frame of format `fmt` and size `w` × `h`. -/
structure Takes (al : Nat) (fmt : VFmt) (w h i : Nat) (f : Frm) (p : Int) : Prop where
  valid : Valid al f
  low : 0 ≤ p
  high : p < f.fmt.numPlanes
  bytes : bps f.fmt = bps fmt
  wid : f.w p.toNat = w / 2 ^ ssw fmt i
  hei : f.h p.toNat = h / 2 ^ ssh fmt i

theorem takePlanes_ok {al : Nat} {dst : Frm} (l : List (Frm × Int)) (i : Nat)
    (h : ∀ (j : Nat) f p, l[j]? = some (f, p) → Takes al dst.fmt dst.width dst.height (i + j) f p) :
    ∃ bs, takePlanes dst i l = .ok bs ∧ bs.length = l.length ∧ ∀ (j : Nat) f p, l[j]? = some (f, p) → ∃ b, bs[j]? = some b ∧
      f.planes[p.toNat]? = some b := by
  induction l generalizing i with
  | nil => exact ⟨[], rfl, rfl, by simp⟩
  | cons a t ih =>
    obtain ⟨f, p⟩ := a
    obtain ⟨bs, e, hl, hb⟩ := ih (i + 1) (fun j f p hj => by
      rw [show i + 1 + j = i + (j + 1) by omega]
      exact h (j + 1) f p (by rw [List.getElem?_cons_succ]; exact hj))
    have tk := h 0 f p rfl
    rw [Nat.add_zero] at tk
    have t1 := tk.low
    have t2 := tk.high
    obtain ⟨b, hb1, hb2, _⟩ := tk.valid.plane_ok (p := p.toNat) (by omega)
    refine ⟨b :: bs, ?_, by simp [hl], ?_⟩
    · unfold takePlanes takePlane
      rw [if_neg (by omega), if_neg, hb2, Res.bind_ok, e, Res.bind_ok]
      rw [tk.wid, tk.hei]
      unfold Frm.w Frm.h
      omega
    · intro j f' p' hj
      rcases j with _ | j
      · rw [List.getElem?_cons_zero, Option.some.injEq, Prod.mk.injEq] at hj
        obtain ⟨rfl, rfl⟩ := hj
        exact ⟨b, rfl, hb1⟩
      · rw [List.getElem?_cons_succ] at hj ⊢
        exact hb j f' p' hj

/-- `newVideoFrame2` with fitting planes. -/
theorem newFrame2_ok {al : Nat} {fmt : VFmt} {w h : Nat} (geo : Geo fmt w h) {srcs : List (Frm × Int)}
    (hl : (srcs.length : Int) = fmt.numPlanes) (ht : ∀ (j : Nat) f p, srcs[j]? = some (f, p) → Takes al fmt w h j f p) (props : Dict) :
    ∃ g, newVideoFrame2 fmt w h srcs props = .ok g ∧ Valid al g ∧ g.fmt = fmt ∧ g.width = w ∧ g.height = h ∧ g.props = props ∧
      ∀ (j : Nat) f p, srcs[j]? = some (f, p) → (img al g j).Same (img al f p.toNat) := by
  have gw := geo.width
  have gh := geo.height
  unfold newVideoFrame2
  rw [if_neg (by omega)]
  simp only [Int.toNat_natCast]
  rw [List.take_of_length_le (by omega)]
  obtain ⟨bs, e, h1, h2⟩ := takePlanes_ok (al := al) (dst := ⟨fmt, w, h, [], props⟩) srcs 0 (fun j f p hj => by
    rw [Nat.zero_add]; exact ht j f p hj)
  rw [e, Res.bind_ok]
  refine ⟨_, rfl, Geo.valid geo (by show (bs.length : Int) = fmt.numPlanes; omega) ?_, rfl, rfl, rfl, rfl, ?_⟩
  · intro j b hb
    have hb' : bs[j]? = some b := hb
    have hj : j < srcs.length := by
      have := (List.getElem?_eq_some_iff.1 hb').1; omega
    obtain ⟨b', e1, e2⟩ := h2 j srcs[j].1 srcs[j].2 (List.getElem?_eq_getElem hj)
    rw [e1, Option.some.injEq] at hb'
    subst hb'
    have tk := ht j srcs[j].1 srcs[j].2 (List.getElem?_eq_getElem hj)
    rw [tk.valid.size _ _ e2]
    congr 1
    · unfold Frm.stride
      rw [tk.wid, tk.bytes]
      rfl
    · rw [tk.hei]
      rfl
  · intro j f p hj
    have tk := ht j f p hj
    obtain ⟨b, e1, e2⟩ := h2 j f p hj
    refine ⟨tk.wid.symm, tk.hei.symm, fun x y _ _ => ?_⟩
    rw [img_px (f := ⟨fmt, w, h, bs, props⟩) (show (⟨fmt, w, h, bs, props⟩ : Frm).planes[j]? = some b from e1), img_px e2]
    have es : Frm.stride al ⟨fmt, w, h, bs, props⟩ j = f.stride al p.toNat := by
      unfold Frm.stride
      rw [tk.wid, tk.bytes]
      rfl
    rw [es, ← tk.bytes]

theorem findSub_ok {s1 s2 : Int} {n i k : Nat} (h : findSubSampling s1 s2 i n = some k) : s1 = s2 * 2 ^ k ∧ i ≤ k ∧ k < i + n := by
  induction n generalizing i with
  | zero => exact absurd h (by simp [findSubSampling])
  | succ n ih =>
    unfold findSubSampling at h
    split at h
    · rw [Option.some.injEq] at h
      subst h
      omega
    · obtain ⟨h1, h2, h3⟩ := ih h
      exact ⟨h1, by omega, by omega⟩

theorem findSub_eq {s2 : Int} (hs : 0 < s2) {n i k : Nat} (hi : i ≤ k) (hk : k < i + n) : findSubSampling (s2 * 2 ^ k) s2 i n = some k := by
  induction n generalizing i with
  | zero => omega
  | succ n ih =>
    unfold findSubSampling
    by_cases e : i = k
    · subst e; rw [if_pos (by omega)]
    · rw [if_neg, ih (by omega) (by omega)]
      intro h
      have h2 : s2 * 2 ^ k = s2 * 2 ^ i := by omega
      have h3 : (2 : Int) ^ k = 2 ^ i := Int.eq_of_mul_eq_mul_left (by omega) h2
      have h4 : (2 : Nat) ^ k = 2 ^ i := by exact_mod_cast h3
      have := Nat.pow_right_inj (by omega : 1 < 2) |>.1 h4
      omega

/-- Plane sizes of the frames of a clip of constant size. -/
theorem plane_size {al : Nat} {c : PClip} (hv : ValidClip al c) (hc : isConstantVideoFormat c.vi = true) {f : Frm} (hf : f ∈ c.frames)
    (p : Nat) : planeWidth c.vi p = f.w p ∧ planeHeight c.vi p = f.h p ∧ f.fmt = c.vi.format := by
  unfold isConstantVideoFormat at hc
  have k := of_decide_eq_true hc
  obtain ⟨s1, s2⟩ := hv.size f hf (by omega)
  have s3 := hv.fmt f hf k.2.2
  refine ⟨?_, ?_, s3⟩
  · unfold planeWidth Frm.w
    rw [← s1, ← s3]
    simp
  · unfold planeHeight Frm.h
    rw [← s2, ← s3]
    simp

/-- Formats with the same number of bits have the same number of bytes. -/
theorem bytes_eq {a b : VFmt} (ha : isValidVideoStruct a = true) (ka : a.colorFamily ≠ cfUndefined) (hb : isValidVideoStruct b = true)
    (kb : b.colorFamily ≠ cfUndefined) (h : a.bitsPerSample = b.bitsPerSample) : bps a = bps b := by
  have ga := ((C20_struct_check a ka).1.1 ha).2.1
  have gb := ((C20_struct_check b kb).1.1 hb).2.1
  rw [← h] at gb
  unfold bps
  rw [smallestBytes_unique ga gb]

/-- What `queryVideoFormat` makes. -/
theorem query_ok {c t b w h : Int} (hk : (queryVideoFormat c t b w h).2.colorFamily ≠ cfUndefined) :
    isValidVideoStruct (queryVideoFormat c t b w h).2 = true ∧ (queryVideoFormat c t b w h).2.colorFamily = c ∧
    (queryVideoFormat c t b w h).2.sampleType = t ∧ (queryVideoFormat c t b w h).2.bitsPerSample = b ∧
    (queryVideoFormat c t b w h).2.subSamplingW = w ∧ (queryVideoFormat c t b w h).2.subSamplingH = h ∧
    (queryVideoFormat c t b w h).2.numPlanes = (if c = cfGray then 1 else 3) := by
  obtain ⟨_, q2, q3⟩ := C20_query_video c t b w h
  by_cases d : Documented c t b w h
  · obtain ⟨g, e1, e2, e3, e4, e5⟩ := q2 d
    refine ⟨(C20_struct_check _ hk).1.2 g, e1, e2, e3, e4, e5, ?_⟩
    rw [g.2.2, e1]
  · rw [q3 d] at hk
    exact absurd rfl hk

theorem gray_known {f : VFmt} (hv : isValidVideoStruct f = true) (hk : f.colorFamily ≠ cfUndefined) :
    (queryVideoFormat cfGray f.sampleType f.bitsPerSample 0 0).2.colorFamily = cfGray := by
  have g := (C20_struct_check f hk).1.1 hv
  have d : Documented cfGray f.sampleType f.bitsPerSample 0 0 := ⟨Or.inl rfl, g.1.2.1, by omega, by omega, fun _ => ⟨rfl, rfl⟩⟩
  exact ((C20_query_video _ _ _ _ _).2.1 d).2.1

end VS.Pix
