import Verif.Video.Spec
import Verif.Wave.Lemmas

/-!
# Helper lemmas: planes and frames
-/

namespace VS.Video
open VS VS.Format VS.Wave

/-- Some rows of a plane. -/
def rowsFrom (src : List Nat) (stride row y n : Nat) : List Nat :=
  (List.range' y n).flatMap fun y => (src.drop (y * stride)).take row

theorem image_rows (bytes : Nat) (p : Plane) : image bytes p = rowsFrom p.mem p.stride (p.width * bytes) 0 p.height := by
  unfold image rowsFrom
  rw [List.range_eq_range']

theorem rowsFrom_length {src : List Nat} {stride row : Nat} : ∀ (n y : Nat), (y + n) * stride ≤ src.length → row ≤ stride →
    (rowsFrom src stride row y n).length = n * row
  | 0, y, _, _ => by simp [rowsFrom]
  | n + 1, y, h, hr => by
    have ih := rowsFrom_length (src := src) (row := row) n (y + 1) (by rw [show y + 1 + n = y + (n + 1) by omega]; exact h) hr
    have h1 : (y + 1) * stride ≤ (y + (n + 1)) * stride := Nat.mul_le_mul_right _ (by omega)
    have e : (y + 1) * stride = y * stride + stride := by rw [Nat.add_mul, Nat.one_mul]
    unfold rowsFrom at ih ⊢
    rw [List.range'_succ, List.flatMap_cons, List.length_append, ih, List.length_take, List.length_drop, Nat.add_mul]
    omega

theorem bitbltLoop_eq {src : List Nat} {stride row : Nat} (hr : row ≤ stride) : ∀ (n y : Nat) (pre rest : List Nat),
    (y + n) * stride ≤ src.length → n * row ≤ rest.length →
    bitbltLoop src stride row row n (y * stride) pre.length (pre ++ rest) =
      .ok (pre ++ rowsFrom src stride row y n ++ rest.drop (n * row))
  | 0, y, pre, rest, _, _ => by simp [bitbltLoop, rowsFrom]
  | n + 1, y, pre, rest, h, hl => by
    have h1 : (y + 1) * stride ≤ (y + (n + 1)) * stride := Nat.mul_le_mul_right _ (by omega)
    have e : (y + 1) * stride = y * stride + stride := by rw [Nat.add_mul, Nat.one_mul]
    have e2 : (n + 1) * row = n * row + row := by rw [Nat.add_mul, Nat.one_mul]
    have hlen : ((src.drop (y * stride)).take row).length = row := by
      rw [List.length_take, List.length_drop]
      omega
    have hload : load src (y * stride) row = .ok ((src.drop (y * stride)).take row) := by
      unfold load
      rw [if_pos (by omega)]
    have hst := store_append pre rest ((src.drop (y * stride)).take row) (by rw [hlen]; omega)
    rw [hlen] at hst
    have ih := bitbltLoop_eq hr n (y + 1) (pre ++ (src.drop (y * stride)).take row) (rest.drop row)
      (by rw [show y + 1 + n = y + (n + 1) by omega]; exact h) (by rw [List.length_drop]; omega)
    rw [List.length_append, hlen, e] at ih
    show (load src (y * stride) row >>= fun l => store (pre ++ rest) pre.length l >>= fun dst =>
      bitbltLoop src stride row row n (y * stride + stride) (pre.length + row) dst) = _
    rw [hload, Res.bind_ok, hst, Res.bind_ok, ih]
    simp only [rowsFrom, List.range'_succ, List.flatMap_cons, List.append_assoc, List.drop_drop, e2, Nat.add_comm row]

theorem rowsFrom_dense {src : List Nat} {row : Nat} : ∀ n, n * row ≤ src.length →
    rowsFrom src row row 0 n = src.take (row * n)
  | 0, _ => by simp [rowsFrom]
  | n + 1, h => by
    have e2 : (n + 1) * row = n * row + row := by rw [Nat.add_mul, Nat.one_mul]
    have ih := rowsFrom_dense (src := src) (row := row) n (by omega)
    unfold rowsFrom at ih ⊢
    rw [← List.range_eq_range'] at ih ⊢
    rw [List.range_succ, List.flatMap_append, ih]
    simp only [List.flatMap_cons, List.flatMap_nil, List.append_nil]
    rw [Nat.mul_add, Nat.mul_one, List.take_add, Nat.mul_comm n row]

structure PlaneOk (bytes : Nat) (p : Plane) : Prop where
  stride : p.width * bytes ≤ p.stride
  mem : p.stride * p.height ≤ p.mem.length

theorem image_length {bytes : Nat} {p : Plane} (h : PlaneOk bytes p) : (image bytes p).length = p.height * (p.width * bytes) := by
  rw [image_rows, rowsFrom_length _ _ (by rw [Nat.zero_add, Nat.mul_comm]; exact h.mem) h.stride]

theorem outputPlane_eq {bytes : Nat} {p : Plane} (h : PlaneOk bytes p) (buf : List Nat)
    (hb : p.height * (p.width * bytes) ≤ buf.length) :
    ∃ buf', outputPlane bytes p buf = .ok (buf', image bytes p) ∧ buf'.length = buf.length := by
  have hil := image_length h
  have hm := h.mem
  have hs := h.stride
  unfold outputPlane
  simp only []
  split
  · next hne =>
    have hbit : bitblt buf (p.width * bytes) p.mem p.stride (p.width * bytes) p.height =
        .ok (image bytes p ++ buf.drop (p.height * (p.width * bytes))) := by
      unfold bitblt
      split
      · rw [if_neg (fun hc => hne hc.2.symm)]
        have := bitbltLoop_eq (src := p.mem) hs p.height 0 [] buf (by rw [Nat.zero_add, Nat.mul_comm]; exact hm) hb
        rw [Nat.zero_mul, List.length_nil, List.nil_append, List.nil_append] at this
        rw [this, image_rows]
      · next hz =>
        have hz' : p.height = 0 := by omega
        rw [hz', Nat.zero_mul, List.drop_zero]
        rw [hz', Nat.zero_mul] at hil
        rw [List.eq_nil_of_length_eq_zero hil, List.nil_append]
    refine ⟨image bytes p ++ buf.drop (p.height * (p.width * bytes)), ?_, ?_⟩
    · rw [hbit, Res.bind_ok]
      unfold load
      rw [if_pos (by rw [List.length_append, hil, Nat.zero_add, Nat.mul_comm]; omega), Res.bind_ok, List.drop_zero,
        Nat.mul_comm (p.width * bytes) p.height, List.take_left' hil]
    · rw [List.length_append, hil, List.length_drop]
      omega
  · next he =>
    have he : p.width * bytes = p.stride := by omega
    refine ⟨buf, ?_, rfl⟩
    unfold load
    rw [if_pos (by rw [he]; omega), Res.bind_ok, List.drop_zero, image_rows, ← he, rowsFrom_dense]
    rw [Nat.mul_comm, he]
    exact hm

/-- What is known about the format of a clip. -/
structure Facts (vi : VInfo) : Prop where
  bytes : vi.format.bytesPerSample.toNat = sampleBytes vi.format.bitsPerSample.toNat
  planes : (vi.format.colorFamily = cfGray ∧ vi.format.numPlanes = 1) ∨
    ((vi.format.colorFamily = cfRGB ∨ vi.format.colorFamily = cfYUV) ∧ vi.format.numPlanes = 3)
  bits : 8 ≤ vi.format.bitsPerSample ∧ vi.format.bitsPerSample ≤ 32
  type : vi.format.sampleType = stInteger ∨ vi.format.sampleType = stFloat ∧ (vi.format.bitsPerSample = 16 ∨ vi.format.bitsPerSample = 32)
  sub : 0 ≤ vi.format.subSamplingW ∧ vi.format.subSamplingW ≤ 4 ∧ 0 ≤ vi.format.subSamplingH ∧ vi.format.subSamplingH ≤ 4
  gray : vi.format.colorFamily = cfGray → vi.format.subSamplingW = 0 ∧ vi.format.subSamplingH = 0
  nums : 0 ≤ vi.fpsNum ∧ 0 ≤ vi.fpsDen ∧ 1 ≤ vi.numFrames

theorem valid_args {cf st bits w h : Int} (h1 : isValidVideoFormat cf st bits w h = true) (hu : cf ≠ 0) :
    (cf = 1 ∨ cf = 2 ∨ cf = 3) ∧ (st = 0 ∨ st = 1 ∧ (bits = 16 ∨ bits = 32)) ∧ (0 ≤ w ∧ w ≤ 4 ∧ 0 ≤ h ∧ h ≤ 4) ∧
      (cf = 1 → w = 0 ∧ h = 0) ∧ 8 ≤ bits ∧ bits ≤ 32 := by
  unfold isValidVideoFormat at h1
  simp [cfUndefined, cfGray, cfRGB, cfYUV, stInteger, stFloat] at h1
  omega

theorem valid_struct {f : VFmt} (h1 : isValidVideoStruct f = true) (hu : f.colorFamily ≠ 0) :
    isValidVideoFormat f.colorFamily f.sampleType f.bitsPerSample f.subSamplingW f.subSamplingH = true ∧
      (f.numPlanes = if f.colorFamily = 3 ∨ f.colorFamily = 2 then 3 else 1) ∧
      (f.bitsPerSample = 8 → f.bytesPerSample = 1) ∧ (8 < f.bitsPerSample ∧ f.bitsPerSample ≤ 16 → f.bytesPerSample = 2) ∧
      (16 < f.bitsPerSample → f.bytesPerSample = 4) := by
  unfold isValidVideoStruct at h1
  split at h1
  · exact absurd h1 (by simp)
  · next h2 =>
    refine ⟨by simpa using h2, ?_⟩
    rw [if_neg (show ¬f.colorFamily = cfUndefined from hu)] at h1
    simp [cfRGB, cfYUV] at h1
    refine ⟨h1.1, ?_⟩
    have := h1.2
    omega

theorem Facts.of {vi : VInfo} (h : ClipOk vi) : Facts vi := by
  have hv := h.valid
  have hu : vi.format.colorFamily ≠ 0 := h.format
  unfold isValidVideoInfo at hv
  have h1 : isValidVideoStruct vi.format = true := by
    cases hs : isValidVideoStruct vi.format with
    | true => rfl
    | false => rw [hs] at hv; simp at hv
  rw [h1] at hv
  simp only [Bool.not_true, Bool.false_eq_true, if_false] at hv
  have h2 : ¬(vi.fpsDen < 0 ∨ vi.fpsNum < 0 ∨ vi.height < 0 ∨ vi.width < 0 ∨ vi.numFrames < 1) := by
    intro hc
    rw [if_pos hc] at hv
    simp at hv
  obtain ⟨h3, h4, h5⟩ := valid_struct h1 hu
  obtain ⟨a1, a2, a3, a4, a5⟩ := valid_args h3 hu
  refine ⟨?_, ?_, a5, a2, a3, a4, by omega⟩
  · unfold sampleBytes
    split
    · omega
    · split <;> omega
  · simp only [cfGray, cfRGB, cfYUV]
    split at h4 <;> omega

theorem plane_ok {vi : VInfo} {planes : List Plane} (h : FrameOk vi planes) {p : Plane} (hp : p ∈ planes) :
    PlaneOk vi.format.bytesPerSample.toNat p := ⟨h.stride p hp, h.mem p hp⟩

theorem plane_room {vi : VInfo} {planes : List Plane} (h : FrameOk vi planes) {p : Plane} (hp : p ∈ planes) :
    p.height * (p.width * vi.format.bytesPerSample.toNat) ≤ (buffer vi).length := by
  obtain ⟨i, hi⟩ := List.getElem?_of_mem hp
  have hw : p.width ≤ vi.width.toNat := by
    rw [h.width i p hi]; unfold planeWidth; split
    · exact Nat.le_refl _
    · exact Nat.div_le_self _ _
  have hh : p.height ≤ vi.height.toNat := by
    rw [h.height i p hi]; unfold planeHeight; split
    · exact Nat.le_refl _
    · exact Nat.div_le_self _ _
  simp only [buffer, List.length_replicate]
  rw [← Nat.mul_assoc]
  apply Nat.mul_le_mul_right
  rw [Nat.mul_comm vi.width.toNat]
  exact Nat.mul_le_mul hh hw

theorem outputFrame_eq {vi : VInfo} (hf : Facts vi) {planes : List Plane} (h : FrameOk vi planes) (buf : List Nat)
    (hb : ∀ p ∈ planes, p.height * (p.width * vi.format.bytesPerSample.toNat) ≤ buf.length) :
    ∃ buf', outputFrame vi.format planes buf = .ok (buf', picture vi.format planes) ∧ buf'.length = buf.length := by
  have hc := h.count
  rcases hf.planes with ⟨hg, hn⟩ | ⟨hg, hn⟩
  · rw [hn] at hc
    have hne : vi.format.colorFamily ≠ cfRGB := by rw [hg]; decide
    match planes, hc, h with
    | [a], _, h =>
      obtain ⟨b1, h1, l1⟩ := outputPlane_eq (plane_ok h (List.mem_cons_self)) buf (hb a (by simp))
      refine ⟨b1, ?_, l1⟩
      unfold outputFrame
      rw [hn]
      simp only [show (1 : Int).toNat = 0 + 1 from rfl, outputPlanes, remap, if_neg hne, List.getElem?_cons_zero, h1, Res.bind_ok]
      simp [picture, ordered, hne]
  · rw [hn] at hc
    match planes, hc, h with
    | [a, b, c], _, h =>
      by_cases hr : vi.format.colorFamily = cfRGB
      · obtain ⟨b1, h1, l1⟩ := outputPlane_eq (plane_ok h (p := b) (by simp)) buf (hb b (by simp))
        obtain ⟨b2, h2, l2⟩ := outputPlane_eq (plane_ok h (p := c) (by simp)) b1 (by rw [l1]; exact hb c (by simp))
        obtain ⟨b3, h3, l3⟩ := outputPlane_eq (plane_ok h (p := a) (by simp)) b2 (by rw [l2, l1]; exact hb a (by simp))
        refine ⟨b3, ?_, by omega⟩
        unfold outputFrame
        rw [hn]
        simp [show (3 : Int).toNat = 0 + 1 + 1 + 1 from rfl, outputPlanes, remap, hr, h1, h2, h3, picture, ordered]
      · obtain ⟨b1, h1, l1⟩ := outputPlane_eq (plane_ok h (p := a) (by simp)) buf (hb a (by simp))
        obtain ⟨b2, h2, l2⟩ := outputPlane_eq (plane_ok h (p := b) (by simp)) b1 (by rw [l1]; exact hb b (by simp))
        obtain ⟨b3, h3, l3⟩ := outputPlane_eq (plane_ok h (p := c) (by simp)) b2 (by rw [l2, l1]; exact hb c (by simp))
        refine ⟨b3, ?_, by omega⟩
        unfold outputFrame
        rw [hn]
        simp [show (3 : Int).toNat = 0 + 1 + 1 + 1 from rfl, outputPlanes, remap, hr, h1, h2, h3, picture, ordered]

/-- What is written for one frame of the output. -/
def record (y4m : Bool) (vi : VInfo) (avi : Option VInfo) (x : List Plane × Option (List Plane)) : List Nat :=
  (if y4m then Json.asc "FRAME\n" else []) ++ pictures vi avi x

theorem alpha_bytes {vi avi : VInfo} (hc : ClipOk vi) (ha : AlphaOk vi avi) : (buffer avi).length = (buffer vi).length := by
  simp only [buffer, List.length_replicate, ha.width, ha.height]
  rw [(Facts.of hc).bytes, (Facts.of ha.clip).bytes, ha.bits]

def alphaFormat (avi : Option VInfo) : VFmt := match avi with | some a => a.format | none => VFmt.zero

theorem outputFrames_eq {y4m : Bool} {vi : VInfo} {avi : Option VInfo} (hc : ClipOk vi) (ha : ∀ a, avi = some a → AlphaOk vi a) :
    ∀ (frames : List (List Plane × Option (List Plane))) (buf : List Nat),
      (∀ x ∈ frames, PairOk vi avi x) → buf.length = (buffer vi).length →
      outputFrames y4m vi.format (alphaFormat avi) frames buf = .ok (frames.flatMap (record y4m vi avi))
  | [], buf, _, _ => rfl
  | (p, none) :: t, buf, h, hb => by
    obtain ⟨h1, h2⟩ := h (p, none) (by simp)
    obtain ⟨b1, e1, l1⟩ := outputFrame_eq (Facts.of hc) h1 buf (fun q hq => by rw [hb]; exact plane_room h1 hq)
    have ih := outputFrames_eq (y4m := y4m) hc ha t b1 (fun x hx => h x (by simp [hx])) (by rw [l1, hb])
    simp only [outputFrames, e1, Res.bind_ok, ih, List.flatMap_cons, record, pictures]
    cases avi <;> simp
  | (p, some q) :: t, buf, h, hb => by
    obtain ⟨h1, h2⟩ := h (p, some q) (by simp)
    cases avi with
    | none => exact h2.elim
    | some a =>
      have ha' := ha a rfl
      obtain ⟨b1, e1, l1⟩ := outputFrame_eq (Facts.of hc) h1 buf (fun q hq => by rw [hb]; exact plane_room h1 hq)
      obtain ⟨b2, e2, l2⟩ := outputFrame_eq (Facts.of ha'.clip) h2 b1
        (fun q hq => by rw [l1, hb, ← alpha_bytes hc ha']; exact plane_room h2 hq)
      have ih := outputFrames_eq (y4m := y4m) hc ha t b2 (fun x hx => h x (by simp [hx])) (by rw [l2, l1, hb])
      have e2' : outputFrame (alphaFormat (some a)) q b1 = .ok (b2, picture a.format q) := e2
      simp only [outputFrames, e1, Res.bind_ok, e2', ih, List.flatMap_cons, record, pictures]
      simp

end VS.Video
