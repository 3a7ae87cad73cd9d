import Verif.Fourcc.Lemmas
import Verif.Video.Props

/-!
# C99: frames with four character codes
-/

namespace VS.Fourcc
open VS VS.Format VS.Wave VS.Video

/-- The numbers of a clip as natural numbers. -/
structure Nums (vi : VInfo) (W H B SW SH : Nat) : Prop where
  w : vi.width = W
  h : vi.height = H
  b : vi.format.bytesPerSample = B
  sw : vi.format.subSamplingW = SW
  sh : vi.format.subSamplingH = SH
  w0 : 0 < W
  h0 : 0 < H

theorem bytes_pos {vi : VInfo} (hc : ClipOk vi) : 1 ≤ vi.format.bytesPerSample := by
  have h := (Facts.of hc).bytes
  unfold sampleBytes at h
  split at h
  · omega
  · split at h <;> omega

theorem nums {vi : VInfo} (hc : ClipOk vi) :
    Nums vi vi.width.toNat vi.height.toNat vi.format.bytesPerSample.toNat vi.format.subSamplingW.toNat vi.format.subSamplingH.toNat := by
  have h1 := hc.width
  have h2 := hc.height
  have h3 := bytes_pos hc
  have h4 := (Facts.of hc).sub
  constructor <;> omega

theorem family_pos {vi : VInfo} (hc : ClipOk vi) : 0 < vi.format.colorFamily := by
  rcases (Facts.of hc).planes with h | h
  · rw [h.1]; decide
  · rcases h.1 with h | h <;> rw [h] <;> decide

/-- The formats that are copied plane by plane: those without code and those with a planar one. -/
theorem planar_cases {vi : VInfo} (hc : ClipOk vi) {alt : Int}
    (hp : ∀ t, findTraits vi.format alt = some t → t.packing = .planar) :
    alignmentOf (findTraits vi.format alt) = 1 ∧ flipped (findTraits vi.format alt) = false := by
  cases ht : findTraits vi.format alt with
  | none => exact ⟨rfl, rfl⟩
  | some t =>
    obtain ⟨hm, hcf, _⟩ := find_mem ht
    obtain ⟨h1, h2, _⟩ := table_planar t hm (by rw [hcf]; exact family_pos hc) (hp t ht)
    exact ⟨h1, h2⟩

theorem order_eq {vi : VInfo} (hc : ClipOk vi) {alt : Int} (hp : ∀ t, findTraits vi.format alt = some t → t.packing = .planar) :
    order (findTraits vi.format alt) =
      if codeOf vi.format alt = code "I420" ∨ codeOf vi.format alt = code "IYUV" then [0, 1, 2] else [0, 2, 1] := by
  cases ht : findTraits vi.format alt with
  | none => rw [code_none ht]; simp [order, code]
  | some t =>
    obtain ⟨hm, hcf, _⟩ := find_mem ht
    obtain ⟨_, _, h3⟩ := table_planar t hm (by rw [hcf]; exact family_pos hc) (hp t ht)
    rw [code_some ht]
    simp only [order]
    by_cases hs : t.swapUV = true
    · rw [if_pos hs, if_pos (h3.mp hs)]
    · rw [if_neg hs, if_neg (fun h => hs (h3.mpr h))]

/-- One step of the loop over the planes. -/
theorem packPlanes_step {vi : VInfo} (hc : ClipOk vi) {alt : Int} (hp : ∀ t, findTraits vi.format alt = some t → t.packing = .planar)
    {planes : List Plane} (hf : FrameOk vi planes) {i : Nat} {p : Plane} (hi : planes[i]? = some p) (hi3 : i < 3) (l : List Nat)
    (pre rest : List Nat) (hr : p.height * (p.width * vi.format.bytesPerSample.toNat) ≤ rest.length)
    (hfit : p.width * vi.format.bytesPerSample.toNat ≤ 2147483647)
    (hfit2 : p.height * (p.width * vi.format.bytesPerSample.toNat) ≤ 2147483647) :
    packPlanes vi.format (findTraits vi.format alt) planes vi.width vi.height (i :: l) (pre.length : Int) (pre ++ rest) =
      packPlanes vi.format (findTraits vi.format alt) planes vi.width vi.height l
        ((pre ++ image vi.format.bytesPerSample.toNat p).length : Int)
        ((pre ++ image vi.format.bytesPerSample.toNat p) ++ rest.drop (p.height * (p.width * vi.format.bytesPerSample.toNat))) := by
  obtain ⟨ha, hfl⟩ := planar_cases hc hp
  have n := nums hc
  have hpw := hf.width i p hi
  have hph := hf.height i p hi
  have hok := plane_ok hf (List.mem_of_getElem? hi)
  have hsw : shr vi.width (if i = 1 ∨ i = 2 then vi.format.subSamplingW else 0) = (p.width : Int) := by
    rw [hpw]
    unfold planeWidth
    by_cases h0 : i = 0
    · rw [if_neg (by omega), if_pos h0, n.w]
      simp [shr]
    · rw [if_pos (by omega), if_neg h0]
      conv => lhs; rw [n.w, n.sw]
      exact shr_nat _ _
  have hsh : shr vi.height (if i = 1 ∨ i = 2 then vi.format.subSamplingH else 0) = (p.height : Int) := by
    rw [hph]
    unfold planeHeight
    by_cases h0 : i = 0
    · rw [if_neg (by omega), if_pos h0, n.h]
      simp [shr]
    · rw [if_pos (by omega), if_neg h0]
      conv => lhs; rw [n.h, n.sh]
      exact shr_nat _ _
  have hb : vi.format.bytesPerSample = (vi.format.bytesPerSample.toNat : Int) := n.b
  generalize vi.format.bytesPerSample.toNat = b at *
  have hstep : i32 (((p.width * b : Nat) : Int) * (p.height : Int)) = .ok ((p.height * (p.width * b) : Nat) : Int) := by
    rw [← Int.natCast_mul, Nat.mul_comm (p.width * b), i32_nat hfit2]
  have hlen : ((pre ++ image b p).length : Int) = (pre.length : Int) + ((p.height * (p.width * b) : Nat) : Int) := by
    rw [List.length_append, image_length hok]
    norm_cast
  have hbytes : i32 ((p.width : Int) * (b : Int)) = .ok ((p.width * b : Nat) : Int) := by
    rw [← Int.natCast_mul, i32_nat hfit]
  rw [packPlanes]
  simp only [hi, hsw, hsh, hb, row_planar ha hfit, Res.bind_ok, hfl, Bool.false_eq_true, if_false, hbytes, Int.add_zero,
    Int.toNat_natCast, copy_plane hok pre rest hr, hstep, hlen]

/-- Bytes of a planar frame. -/
theorem frame_bytes {vi : VInfo} {planes : List Plane} (hf : FrameOk vi planes) (p : Plane) (hp : p ∈ planes) :
    (image vi.format.bytesPerSample.toNat p).length = p.height * (p.width * vi.format.bytesPerSample.toNat) :=
  image_length (plane_ok hf hp)

theorem three {l : List Plane} (h : l.length = 3) : ∃ y u v, l = [y, u, v] :=
  match l, h with
  | [y, u, v], _ => ⟨y, u, v, rfl⟩

/-- Planar formats: `BMPSize` is the number of bytes of the frame, and `PackOutputFrame` writes exactly these bytes to the
front of the buffer: luma, V, U (or luma, U, V) without padding.  Nothing outside of frame and buffer is touched. -/
theorem C99_planar (vi : VInfo) (alt : Int) (planes : List Plane) (buf : List Nat) (hc : ClipOk vi) (hd : Divides vi)
    (hf : FrameOk vi planes) (hpk : needsPacking vi.format alt = false)
    (hfit : (planarFrame (codeOf vi.format alt) vi.format.bytesPerSample.toNat planes).length ≤ 2147483647)
    (hbuf : (planarFrame (codeOf vi.format alt) vi.format.bytesPerSample.toNat planes).length ≤ buf.length) :
    bmpSize vi alt = .ok ((planarFrame (codeOf vi.format alt) vi.format.bytesPerSample.toNat planes).length : Int) ∧
    packOutputFrame planes buf vi.width vi.height vi.format alt =
      .ok (.copied (planarFrame (codeOf vi.format alt) vi.format.bytesPerSample.toNat planes ++
        buf.drop (planarFrame (codeOf vi.format alt) vi.format.bytesPerSample.toNat planes).length)) := by
  have hp : ∀ t, findTraits vi.format alt = some t → t.packing = .planar := by
    intro t ht
    unfold needsPacking at hpk
    rw [ht] at hpk
    simp only [Bool.or_eq_false_iff, decide_eq_false_iff_not, Decidable.not_not] at hpk
    exact hpk.1
  clear hpk
  obtain ⟨ha, hfl⟩ := planar_cases hc hp
  have n := nums hc
  have hcnt := hf.count
  have hord := order_eq hc hp
  have hrowle : ∀ p : Plane, p ∈ planes → 0 < p.height → p.width * vi.format.bytesPerSample.toNat ≤ p.height * (p.width * vi.format.bytesPerSample.toNat) :=
    fun p _ h0 => Nat.le_mul_of_pos_left _ h0
  have hpk : packOutputFrame planes buf vi.width vi.height vi.format alt =
      (packPlanes vi.format (findTraits vi.format alt) planes vi.width vi.height
        ((order (findTraits vi.format alt)).take vi.format.numPlanes.toNat) 0 buf >>= fun b => .ok (.copied b)) := by
    unfold packOutputFrame
    cases ht : findTraits vi.format alt with
    | none => rfl
    | some t => simp only [hp t ht, if_true]
  have hH : ∀ (i : Nat) (p : Plane), planes[i]? = some p → 0 < p.height := by
    intro i p hi
    rw [hf.height i p hi]
    unfold planeHeight
    split
    · exact n.h0
    · exact Nat.div_pos (Nat.le_of_dvd n.h0 (Nat.dvd_of_mod_eq_zero hd.2)) (Nat.two_pow_pos _)
  have hb1 : vi.format.bytesPerSample = (vi.format.bytesPerSample.toNat : Int) := n.b
  rcases (Facts.of hc).planes with ⟨hg, hn⟩ | ⟨hg, hn⟩
  · rw [hn] at hcnt
    obtain ⟨a, rfl⟩ := List.length_eq_one_iff.mp hcnt
    have hpf : planarFrame (codeOf vi.format alt) vi.format.bytesPerSample.toNat [a] = image vi.format.bytesPerSample.toNat a := by
      simp [planarFrame, planesOf]
    have hla := frame_bytes hf a (by simp)
    have h0 := hH 0 a rfl
    have hwa := hf.width 0 a rfl
    have hha := hf.height 0 a rfl
    simp only [planeWidth, planeHeight, if_true] at hwa hha
    have hrow := hrowle a List.mem_cons_self h0
    rw [hpf] at hfit hbuf ⊢
    rw [hla] at hfit hbuf
    constructor
    · have hr : rowSizePlanar vi.width vi.format.bytesPerSample (findTraits vi.format alt) =
          .ok ((a.width * vi.format.bytesPerSample.toNat : Nat) : Int) := by
        have := row_planar (w := a.width) (b := vi.format.bytesPerSample.toNat) ha (by omega)
        rw [← hb1, hwa, ← n.w] at this
        rw [this, hwa]
      have hs : i32 (((a.width * vi.format.bytesPerSample.toNat : Nat) : Int) * vi.height) =
          .ok ((image vi.format.bytesPerSample.toNat a).length : Int) := by
        rw [n.h, ← hha, ← Int.natCast_mul, Nat.mul_comm, hla, i32_nat hfit]
      unfold bmpSize
      cases ht : findTraits vi.format alt with
      | none => rw [ht] at hr; simp only [ht, hr, hs, Res.bind_ok, hg, true_or, if_true]
      | some t => rw [ht] at hr; simp only [ht, hp t ht, hr, hs, Res.bind_ok, hg, true_or, if_true]
    · have ho : (order (findTraits vi.format alt)).take (1 : Int).toNat = [0] := by
        rw [hord]; split <;> rfl
      have hst := packPlanes_step hc hp hf (i := 0) rfl (by omega) [] [] buf hbuf (by omega) hfit
      rw [hpk, hn, ho]
      simp only [List.length_nil, List.nil_append, Int.natCast_zero] at hst
      rw [hst, hla]
      rfl
  · rw [hn] at hcnt
    have hng : ¬ (vi.format.colorFamily = cfGray ∨ vi.format.colorFamily = cfPackedRGB ∨ vi.format.colorFamily = cfPackedYUV) := by
      rcases hg with h | h <;> rw [h] <;> decide
    obtain ⟨y, u, v, rfl⟩ := three hcnt
    have hly := frame_bytes hf y (by simp)
    have hlu := frame_bytes hf u (by simp)
    have hlv := frame_bytes hf v (by simp)
    have ry := hrowle y List.mem_cons_self (hH 0 y rfl)
    have ru := hrowle u (by simp) (hH 1 u rfl)
    have rv := hrowle v (by simp) (hH 2 v rfl)
    have hwy := hf.width 0 y rfl
    have hhy := hf.height 0 y rfl
    have hwu := hf.width 1 u rfl
    have hhu := hf.height 1 u rfl
    have hwv := hf.width 2 v rfl
    have hhv := hf.height 2 v rfl
    simp only [planeWidth, planeHeight, if_true, Nat.one_ne_zero, show ¬((2 : Nat) = 0) by decide, if_false] at hwy hhy hwu hhu hwv hhv
    have huv : v.height * (v.width * vi.format.bytesPerSample.toNat) = u.height * (u.width * vi.format.bytesPerSample.toNat) := by
      rw [hwv, hhv, hwu, hhu]
    have hlen : (planarFrame (codeOf vi.format alt) vi.format.bytesPerSample.toNat [y, u, v]).length =
        y.height * (y.width * vi.format.bytesPerSample.toNat) + u.height * (u.width * vi.format.bytesPerSample.toNat) +
          v.height * (v.width * vi.format.bytesPerSample.toNat) := by
      unfold planarFrame planesOf
      simp only
      split <;> simp only [List.flatMap_cons, List.flatMap_nil, List.append_nil, List.length_append, hly, hlu, hlv] <;> omega
    rw [hlen] at hfit hbuf
    constructor
    · have hr : rowSizePlanar vi.width vi.format.bytesPerSample (findTraits vi.format alt) =
          .ok ((y.width * vi.format.bytesPerSample.toNat : Nat) : Int) := by
        have := row_planar (w := y.width) (b := vi.format.bytesPerSample.toNat) ha (by omega)
        rw [← hb1, hwy, ← n.w] at this
        rw [this, hwy]
      have hs : i32 (((y.width * vi.format.bytesPerSample.toNat : Nat) : Int) * vi.height) =
          .ok ((y.height * (y.width * vi.format.bytesPerSample.toNat) : Nat) : Int) := by
        rw [n.h, ← hhy, ← Int.natCast_mul, Nat.mul_comm, i32_nat (by omega)]
      have hsw : shr vi.width vi.format.subSamplingW = (u.width : Int) := by
        rw [hwu]
        conv => lhs; rw [n.w, n.sw]
        exact shr_nat _ _
      have hsh : shr vi.height vi.format.subSamplingH = (u.height : Int) := by
        rw [hhu]
        conv => lhs; rw [n.h, n.sh]
        exact shr_nat _ _
      have hcr : rowSizePlanar (u.width : Int) vi.format.bytesPerSample (findTraits vi.format alt) =
          .ok ((u.width * vi.format.bytesPerSample.toNat : Nat) : Int) := by
        have := row_planar (w := u.width) (b := vi.format.bytesPerSample.toNat) ha (by omega)
        rw [← hb1] at this
        exact this
      have hcs : i32 (((u.width * vi.format.bytesPerSample.toNat : Nat) : Int) * (u.height : Int)) =
          .ok ((u.height * (u.width * vi.format.bytesPerSample.toNat) : Nat) : Int) := by
        rw [← Int.natCast_mul, Nat.mul_comm, i32_nat (by omega)]
      have h2 : i32 (((u.height * (u.width * vi.format.bytesPerSample.toNat) : Nat) : Int) * 2) =
          .ok ((2 * (u.height * (u.width * vi.format.bytesPerSample.toNat)) : Nat) : Int) := by
        rw [show ((u.height * (u.width * vi.format.bytesPerSample.toNat) : Nat) : Int) * 2 =
          ((2 * (u.height * (u.width * vi.format.bytesPerSample.toNat)) : Nat) : Int) by omega, i32_nat (by omega)]
      have h3 : i32 (((y.height * (y.width * vi.format.bytesPerSample.toNat) : Nat) : Int) +
          ((2 * (u.height * (u.width * vi.format.bytesPerSample.toNat)) : Nat) : Int)) =
          .ok ((planarFrame (codeOf vi.format alt) vi.format.bytesPerSample.toNat [y, u, v]).length : Int) := by
        rw [hlen, ← Int.natCast_add, i32_nat (by omega)]
        congr 2
        omega
      have hass : asserts vi = .ok () := by
        unfold asserts
        rw [if_pos]
        refine ⟨hn, ?_, ?_⟩
        · rw [n.w]
          have := hd.1
          exact_mod_cast this
        · rw [n.h]
          have := hd.2
          exact_mod_cast this
      unfold bmpSize
      cases ht : findTraits vi.format alt with
      | none =>
        rw [ht] at hr hcr
        simp only [ht, hr, hs, Res.bind_ok, if_neg hng, hass, hsw, hsh, hcr, hcs, h2, h3]
      | some t =>
        rw [ht] at hr hcr
        simp only [ht, hp t ht, if_true, hr, hs, Res.bind_ok, if_neg hng, hass, hsw, hsh, hcr, hcs, h2, h3]
    · rw [hpk, hn, hord, hlen]
      have s1 := fun l => packPlanes_step hc hp hf (i := 0) rfl (by omega) l [] buf (by omega) (by omega) (by omega)
      simp only [List.length_nil, List.nil_append, Int.natCast_zero] at s1
      unfold planarFrame planesOf
      simp only
      split
      · show (packPlanes _ _ _ _ _ [0, 1, 2] 0 buf >>= _) = _
        rw [s1, packPlanes_step hc hp hf (i := 1) rfl (by omega) [2] _ _ (by rw [List.length_drop]; omega) (by omega) (by omega),
          packPlanes_step hc hp hf (i := 2) rfl (by omega) [] _ _ (by simp only [List.length_drop]; omega) (by omega) (by omega)]
        simp only [packPlanes, Res.bind_ok, List.drop_drop, List.flatMap_cons, List.flatMap_nil, List.append_nil, List.append_assoc, Nat.add_assoc]
      · show (packPlanes _ _ _ _ _ [0, 2, 1] 0 buf >>= _) = _
        rw [s1, packPlanes_step hc hp hf (i := 2) rfl (by omega) [1] _ _ (by rw [List.length_drop]; omega) (by omega) (by omega),
          packPlanes_step hc hp hf (i := 1) rfl (by omega) [] _ _ (by simp only [List.length_drop]; omega) (by omega) (by omega)]
        simp only [packPlanes, Res.bind_ok, List.drop_drop, List.flatMap_cons, List.flatMap_nil, List.append_nil, List.append_assoc, Nat.add_assoc, huv]

theorem packed_traits {f : VFmt} {alt : Int} (h : needsPacking f alt = true) :
    ∃ t, findTraits f alt = some t ∧ t.packing ≠ .planar := by
  unfold needsPacking at h
  cases ht : findTraits f alt with
  | none => rw [ht] at h; exact absurd h (by decide)
  | some t =>
    rw [ht] at h
    refine ⟨t, rfl, ?_⟩
    have key : ∀ t ∈ table, t.upsideDown = true → t.packing ≠ .planar := by decide
    simp only [Bool.or_eq_true, decide_eq_true_eq] at h
    rcases h with h | h
    · exact h
    · exact key t (find_mem ht).1 h

/-- Formats with all samples in one plane: `BMPSize` is the size of all lines; libp2p is called with the packing of the code,
and row `y` of the picture is line `y` of the buffer, counted from the bottom for DIB. -/
theorem C99_single (vi : VInfo) (alt : Int) (planes : List Plane) (buf : List Nat) (hc : ClipOk vi)
    (hpk : needsPacking vi.format alt = true) (hone : ¬ TwoPlanes (codeOf vi.format alt)) (hw : vi.width.toNat < 2 ^ 27)
    (hfit : lineBytes (codeOf vi.format alt) vi.width.toNat * vi.height.toNat ≤ 2147483647) :
    bmpSize vi alt = .ok ((lineBytes (codeOf vi.format alt) vi.width.toNat * vi.height.toNat : Nat) : Int) ∧
    ∃ p, packOutputFrame planes buf vi.width vi.height vi.format alt = .ok (.packed p) ∧
      p.packing = packingOf (codeOf vi.format alt) vi.format.bitsPerSample ∧ p.width = vi.width ∧ p.height = vi.height ∧
      p.second = none ∧ ∀ y : Nat, y < vi.height.toNat → p.dst0 + y * p.stride0 =
        (((if codeOf vi.format alt = code "DIB " then vi.height.toNat - 1 - y else y) *
          lineBytes (codeOf vi.format alt) vi.width.toNat : Nat) : Int) := by
  obtain ⟨t, ht, hpl⟩ := packed_traits hpk
  obtain ⟨hm, _, _, hbits, _⟩ := find_mem ht
  have hcode := code_some ht
  have hnv : t.nv = false := by
    cases hv : t.nv with
    | false => rfl
    | true => exact absurd (by rw [hcode]; exact (table_nv t hm).mp hv) hone
  obtain ⟨hsw, hup, hpo, _⟩ := table_single t hm hnv hpl
  have n := nums hc
  have hrow := row_interleaved hm hnv hpl hw
  rw [← n.w, ← hcode] at hrow
  rw [← hcode] at hup hpo
  have hpos : 0 < lineBytes (codeOf vi.format alt) vi.width.toNat := by
    have := n.w0
    unfold lineBytes
    split
    · omega
    · split
      · omega
      · split
        · omega
        · split <;> omega
  generalize lineBytes (codeOf vi.format alt) vi.width.toNat = L at *
  constructor
  · unfold bmpSize
    simp only [ht, if_neg hpl, hnv, Bool.false_eq_true, if_false, hrow, Res.bind_ok]
    rw [n.h, ← Int.natCast_mul, i32_nat (by simpa using hfit)]
    simp
  · by_cases hu : t.upsideDown = true
    · refine ⟨⟨t.packing, vi.width, vi.height, 0 + (vi.height - 1) * (L : Int), -(L : Int), none⟩, ?_, by rw [hpo, hbits], rfl, rfl, rfl, ?_⟩
      · unfold packOutputFrame param turn
        simp only [ht, if_neg hpl, hnv, hsw, Bool.false_eq_true, if_false, hrow, Res.bind_ok, hu, if_true]
        rw [if_pos (by show (L : Int) > 0; omega)]
        rfl
      · intro y hy
        rw [if_pos (hup.mp hu)]
        have e : vi.height = ((vi.height.toNat - 1 - y : Nat) : Int) + 1 + y := by have := n.h; omega
        show 0 + (vi.height - 1) * (L : Int) + y * -(L : Int) = _
        rw [Int.natCast_mul]
        generalize (vi.height.toNat - 1 - y) = k at *
        rw [e]
        grind
    · refine ⟨⟨t.packing, vi.width, vi.height, 0, (L : Int), none⟩, ?_, by rw [hpo, hbits], rfl, rfl, rfl, ?_⟩
      · unfold packOutputFrame param turn
        simp only [ht, if_neg hpl, hnv, hsw, Bool.false_eq_true, if_false, hrow, Res.bind_ok, hu]
      · intro y hy
        rw [if_neg (fun h => hu (hup.mpr h))]
        show 0 + (y : Int) * (L : Int) = _
        rw [Int.zero_add, Int.natCast_mul]

/-- Formats with two planes: `BMPSize` is the size of the lines of both; libp2p writes luma to the front and chroma behind it,
rows without padding. -/
theorem C99_two (vi : VInfo) (alt : Int) (planes : List Plane) (buf : List Nat) (hc : ClipOk vi) (hd : Divides vi)
    (htwo : TwoPlanes (codeOf vi.format alt))
    (hfit : 2 * vi.width.toNat * vi.height.toNat + 2 * vi.width.toNat * (vi.height.toNat / 2 ^ vi.format.subSamplingH.toNat) ≤ 2147483647) :
    bmpSize vi alt = .ok ((2 * vi.width.toNat * vi.height.toNat +
      2 * vi.width.toNat * (vi.height.toNat / 2 ^ vi.format.subSamplingH.toNat) : Nat) : Int) ∧
    packOutputFrame planes buf vi.width vi.height vi.format alt =
      .ok (.packed ⟨packingOf (codeOf vi.format alt) vi.format.bitsPerSample, vi.width, vi.height, 0, (2 * vi.width.toNat : Nat),
        some ((2 * vi.width.toNat * vi.height.toNat : Nat), (2 * vi.width.toNat : Nat))⟩) := by
  cases ht : findTraits vi.format alt with
  | none =>
    rw [code_none ht] at htwo
    exact absurd htwo (by decide)
  | some t =>
    obtain ⟨hm, hcf, _, hbits, hsw, _⟩ := find_mem ht
    have hcode := code_some ht
    have hnv : t.nv = true := (table_nv t hm).mpr (by rw [← hcode]; exact htwo)
    obtain ⟨ha, hup, hswap, hpl, hs1, hb8, hb16, hyuv, hpo⟩ := table_two t hm hnv
    have n := nums hc
    have hfa := Facts.of hc
    have hB : vi.format.bytesPerSample = ((2 : Nat) : Int) := by
      have h1 := hfa.bytes
      have h2 := n.b
      have h3 : sampleBytes vi.format.bitsPerSample.toNat = 2 := by
        unfold sampleBytes
        rw [if_neg (by omega), if_pos (by omega)]
      omega
    have hnp : vi.format.numPlanes = 3 := by
      rcases hfa.planes with h | h
      · rw [← hcf, hyuv] at h
        exact absurd h.1 (by decide)
      · exact h.2
    have hsub : vi.format.subSamplingW = ((1 : Nat) : Int) := by omega
    have hass : asserts vi = .ok () := by
      unfold asserts
      rw [if_pos]
      refine ⟨hnp, ?_, ?_⟩
      · rw [n.w]
        have := hd.1
        exact_mod_cast this
      · rw [n.h]
        have := hd.2
        exact_mod_cast this
    have hd1 := hd.1
    rw [hsub] at hd1
    simp only [Int.toNat_natCast, Nat.pow_one] at hd1
    have h0 := n.h0
    have hle : 2 * vi.width.toNat ≤ 2 * vi.width.toNat * vi.height.toNat := Nat.le_mul_of_pos_right _ h0
    have r0 : rowSizePlanar vi.width vi.format.bytesPerSample (some t) = .ok ((2 * vi.width.toNat : Nat) : Int) := by
      have := row_planar (w := vi.width.toNat) (b := 2) (t := some t) ha (by omega)
      rw [← n.w, ← hB] at this
      rw [this, Nat.mul_comm]
    have w2 : i32 (shr vi.width vi.format.subSamplingW * 2) = .ok (vi.width.toNat : Int) := by
      have : shr vi.width vi.format.subSamplingW * 2 = (vi.width.toNat : Int) := by
        rw [hsub]
        conv => lhs; rw [n.w]
        rw [shr_nat, Nat.pow_one]
        omega
      rw [this, i32_nat (by omega)]
    have r1 : rowSizePlanar (vi.width.toNat : Int) vi.format.bytesPerSample (some t) = .ok ((2 * vi.width.toNat : Nat) : Int) := by
      rw [← r0, ← n.w]
    have hsh : shr vi.height vi.format.subSamplingH = ((vi.height.toNat / 2 ^ vi.format.subSamplingH.toNat : Nat) : Int) := by
      conv => lhs; rw [n.h, n.sh]
      exact shr_nat _ _
    have hh : vi.height = (vi.height.toNat : Int) := n.h
    generalize vi.height.toNat / 2 ^ vi.format.subSamplingH.toNat = ch at *
    constructor
    · have e1 : i32 (((2 * vi.width.toNat : Nat) : Int) * vi.height) = .ok ((2 * vi.width.toNat * vi.height.toNat : Nat) : Int) := by
        conv => lhs; rw [hh]
        rw [← Int.natCast_mul, i32_nat (by omega)]
      have e2 : i32 (((2 * vi.width.toNat : Nat) : Int) * (ch : Int)) = .ok ((2 * vi.width.toNat * ch : Nat) : Int) := by
        rw [← Int.natCast_mul, i32_nat (by omega)]
      unfold bmpSize
      simp only [ht, if_neg hpl, hnv, if_true, hass, r0, w2, r1, hsh, Res.bind_ok, e1, e2]
      rw [← Int.natCast_add, i32_nat (by omega)]
    · unfold packOutputFrame param turn
      simp only [ht, if_neg hpl, hnv, hswap, hup, Bool.false_eq_true, if_false, if_true, r0, w2, r1, Res.bind_ok]
      rw [hcode, hpo, hbits]
      have e : ((2 * vi.width.toNat : Nat) : Int) * vi.height = ((2 * vi.width.toNat * vi.height.toNat : Nat) : Int) := by
        conv => lhs; rw [hh]
        rw [← Int.natCast_mul]
      rw [e]

/-- The number for `biCompression`: 0 for DIB, the code itself for all others; there is one exactly when there is a code. -/
theorem C99_compression (f : VFmt) (alt : Int) :
    ((getBiCompression f alt).1 = true ↔ (codeOf f alt).isSome) ∧
    ∀ c, codeOf f alt = some c → le 4 (getBiCompression f alt).2 = if some c = code "DIB " then [0, 0, 0, 0] else c := by
  cases ht : findTraits f alt with
  | none =>
    rw [code_none ht]
    unfold getBiCompression getFourCC
    rw [ht]
    simp
  | some t =>
    have hm := (find_mem ht).1
    rw [code_some ht]
    unfold getBiCompression getFourCC
    rw [ht]
    have key : ∀ t ∈ table, le 4 (if fcc t.name = fcc "DIB " then (true, 0) else (true, fcc t.name)).2 =
      if code t.name = code "DIB " then [0, 0, 0, 0] else t.name.toList.map Char.toNat := by decide
    have := key t hm
    refine ⟨?_, ?_⟩
    · simp only [true_and]
      split <;> simp [code]
    · intro c hcc
      rw [← hcc]
      simp only [true_and]
      rw [this]
      congr 1
      unfold code at hcc
      exact Option.some.inj hcc

/-- Bits for each pixel: for YUV formats without a fixed number they are the bits of all samples of a picture, padding bits
included. -/
theorem C99_bits (vi : VInfo) (alt : Int) (hc : ClipOk vi) (hd : Divides vi) (hyuv : vi.format.colorFamily = cfYUV)
    (hcode : (codeOf vi.format alt).isSome) (h1 : codeOf vi.format alt ≠ code "v210") (h2 : codeOf vi.format alt ≠ code "Y410")
    (h3 : codeOf vi.format alt ≠ code "Y416") :
    bitsPerPixel vi.format alt * ((vi.width.toNat * vi.height.toNat : Nat) : Int) =
      ((8 * vi.format.bytesPerSample.toNat * (vi.width.toNat * vi.height.toNat + 2 * (vi.width.toNat / 2 ^ vi.format.subSamplingW.toNat *
        (vi.height.toNat / 2 ^ vi.format.subSamplingH.toNat))) : Nat) : Int) := by
  cases ht : findTraits vi.format alt with
  | none => rw [code_none ht] at hcode; exact absurd hcode (by decide)
  | some t =>
    obtain ⟨hm, hcf, _, _, hsw, hsh, _⟩ := find_mem ht
    rw [code_some ht] at h1 h2 h3
    have key : ∀ t ∈ table, t.colorFamily = cfYUV → code t.name ≠ code "v210" → code t.name ≠ code "Y410" → code t.name ≠ code "Y416" →
      t.bitCount = 0 ∧ (t.subW = 0 ∧ t.subH = 0 ∨ t.subW = 1 ∧ t.subH = 0 ∨ t.subW = 1 ∧ t.subH = 1 ∨ t.subW = 2 ∧ t.subH = 0 ∨
        t.subW = 2 ∧ t.subH = 2) := by decide
    obtain ⟨hbc, hsub⟩ := key t hm (by rw [hcf, hyuv]) h1 h2 h3
    have n := nums hc
    have hb : vi.format.bytesPerSample = (vi.format.bytesPerSample.toNat : Int) := n.b
    obtain ⟨hd1, hd2⟩ := hd
    have e : bitsPerPixel vi.format alt = vi.format.bytesPerSample * 8 +
        shr (vi.format.bytesPerSample * 8 * 2) (vi.format.subSamplingW + vi.format.subSamplingH) := by
      unfold bitsPerPixel
      simp only [ht, hbc]
      simp
    rw [e, hb]
    rw [hsw, hsh] at hsub
    generalize vi.format.bytesPerSample.toNat = B at *
    generalize vi.width.toNat = W at *
    generalize vi.height.toNat = H at *
    have fin : ∀ (k a b : Nat), W = a * (W / a) → H = b * (H / b) → (B : Int) * 8 * 2 / k * (a * b) = (B : Int) * 16 →
        ((B : Int) * 8 + (B : Int) * 8 * 2 / k) * ((W * H : Nat) : Int) = ((8 * B * (W * H + 2 * (W / a * (H / b))) : Nat) : Int) := by
      intro k a b hW hH hk
      generalize (B : Int) * 8 * 2 / k = q at *
      generalize W / a = cw at *
      generalize H / b = ch at *
      subst hW hH
      push_cast
      have : q * (a * cw * (b * ch)) = (q * (a * b)) * (cw * ch) := by grind
      rw [Int.add_mul, this, hk]
      grind
    rcases hsub with ⟨a, b⟩ | ⟨a, b⟩ | ⟨a, b⟩ | ⟨a, b⟩ | ⟨a, b⟩ <;> rw [a] at hd1 <;> rw [b] at hd2 <;> rw [a, b] <;> simp at hd1 hd2 <;> unfold shr
    · exact fin 1 1 1 (by omega) (by omega) (by omega)
    · exact fin 2 2 1 (by omega) (by omega) (by omega)
    · exact fin 4 2 2 (by omega) (by omega) (by omega)
    · exact fin 4 4 1 (by omega) (by omega) (by omega)
    · exact fin 16 4 4 (by omega) (by omega) (by omega)

/-! ## What does not hold -/

/-- 8 bit gray, code Y800, 4x2 pixels: the image has 8 bytes, but 24 bits for each pixel are reported. -/
theorem C99_gray_refuted : ∃ vi : VInfo, ClipOk vi ∧ Divides vi ∧ codeOf vi.format 0 = code "Y800" ∧ vi.width * vi.height = 8 ∧
    bmpSize vi 0 = .ok 8 ∧ bitsPerPixel vi.format 0 = 24 :=
  ⟨⟨⟨1, 0, 8, 1, 0, 0, 1⟩, 25, 1, 4, 2, 1⟩, ⟨by decide +kernel, by decide, by decide, by decide⟩, ⟨by decide, by decide⟩, by decide, by decide,
    by decide, by decide⟩

/-- A valid clip of 40000x20000 pixels, RGB: the computation of the size overflows. -/
theorem C99_overflow_refuted : ∃ vi : VInfo, ClipOk vi ∧ Divides vi ∧ hasSupportedFourCC vi.format = true ∧ bmpSize vi 0 = .ub :=
  ⟨⟨⟨2, 0, 8, 1, 0, 0, 3⟩, 25, 1, 40000, 20000, 1⟩, ⟨by decide +kernel, by decide, by decide, by decide⟩, ⟨by decide, by decide⟩, by decide, by decide⟩

/-- The test when a script is opened is made for mode 0: with another mode there may be no code for the same format. -/
theorem C99_alt_refuted : ∃ (vi : VInfo) (alt : Int), ClipOk vi ∧ alt ∈ [0, 1, 2] ∧ hasSupportedFourCC vi.format = true ∧ codeOf vi.format alt = none :=
  ⟨⟨⟨2, 0, 8, 1, 0, 0, 3⟩, 25, 1, 4, 2, 1⟩, 1, ⟨by decide +kernel, by decide, by decide, by decide⟩, by decide, by decide, by decide⟩

/-- At most one entry fits: the order of the table does not matter. -/
theorem C99_unique (t s : Traits) (ht : t ∈ table) (hs : s ∈ table) (h : t.colorFamily = s.colorFamily ∧ t.sampleType = s.sampleType ∧
    t.bits = s.bits ∧ t.subW = s.subW ∧ t.subH = s.subH ∧ t.alt = s.alt) : t = s := by
  have key : ∀ t ∈ table, ∀ s ∈ table, t.colorFamily = s.colorFamily ∧ t.sampleType = s.sampleType ∧
    t.bits = s.bits ∧ t.subW = s.subW ∧ t.subH = s.subH ∧ t.alt = s.alt → t = s := by decide
  exact key t ht s hs h

/-! ## Examples -/

/-- 4:2:0, 8 bits, 4x2 pixels, rows 16 bytes apart. -/
def viYV12 : VInfo := ⟨⟨3, 0, 8, 1, 1, 1, 3⟩, 25, 1, 4, 2, 1⟩
def planesYV12 : List Plane := [⟨4, 2, 16, List.range 32⟩, ⟨2, 1, 16, List.range' 50 16⟩, ⟨2, 1, 16, List.range' 100 16⟩]

theorem viYV12_ok : ClipOk viYV12 := ⟨by decide +kernel, by decide, by decide, by decide⟩

theorem planesYV12_ok : FrameOk viYV12 planesYV12 := by
  refine ⟨rfl, ?_, ?_, by decide, by decide⟩ <;>
  · intro i p h
    match i, h with
    | 0, h => cases h; rfl
    | 1, h => cases h; rfl
    | 2, h => cases h; rfl
    | n + 3, h => simp [planesYV12] at h

/-- YV12: luma, V, U; the buffer behind is as before. -/
example : bmpSize viYV12 0 = .ok 12 ∧ packOutputFrame planesYV12 (List.replicate 13 255) 4 2 viYV12.format 0 =
    .ok (.copied [0, 1, 2, 3, 16, 17, 18, 19, 100, 101, 50, 51, 255]) := by
  have h := C99_planar viYV12 0 planesYV12 (List.replicate 13 255) viYV12_ok ⟨by decide, by decide⟩ planesYV12_ok (by decide) (by decide) (by decide)
  exact ⟨h.1.trans (by decide), h.2.trans (by decide)⟩

/-- I420: luma, U, V. -/
example : packOutputFrame planesYV12 (List.replicate 12 255) 4 2 viYV12.format 1 =
    .ok (.copied [0, 1, 2, 3, 16, 17, 18, 19, 50, 51, 100, 101]) :=
  (C99_planar viYV12 1 planesYV12 (List.replicate 12 255) viYV12_ok ⟨by decide, by decide⟩ planesYV12_ok (by decide) (by decide) (by decide)).2.trans
    (by decide)

/-- RGB, 5x3 pixels: 20 bytes for each line, the first row at the end. -/
example : bmpSize ⟨⟨2, 0, 8, 1, 0, 0, 3⟩, 25, 1, 5, 3, 1⟩ 0 = .ok 60 :=
  (C99_single ⟨⟨2, 0, 8, 1, 0, 0, 3⟩, 25, 1, 5, 3, 1⟩ 0 [] [] ⟨by decide +kernel, by decide, by decide, by decide⟩ (by decide) (by decide) (by decide)
    (by decide)).1

example : packOutputFrame [] [] 5 3 ⟨2, 0, 8, 1, 0, 0, 3⟩ 0 = .ok (.packed ⟨.argb32le, 5, 3, 40, -20, none⟩) := by decide

/-- v210, 50x2 pixels: 256 bytes for each line. -/
example : bmpSize ⟨⟨3, 0, 10, 2, 1, 0, 3⟩, 25, 1, 50, 2, 1⟩ 1 = .ok 512 :=
  (C99_single ⟨⟨3, 0, 10, 2, 1, 0, 3⟩, 25, 1, 50, 2, 1⟩ 1 [] [] ⟨by decide +kernel, by decide, by decide, by decide⟩ (by decide) (by decide) (by decide)
    (by decide)).1

/-- P010, 4x2 pixels: chroma after 16 bytes. -/
example : bmpSize vi420 0 = .ok 24 ∧ packOutputFrame planes420 [] 4 2 vi420.format 0 = .ok (.packed ⟨.p010le, 4, 2, 0, 8, some (16, 8)⟩) :=
  C99_two vi420 0 planes420 [] vi420_ok ⟨by decide, by decide⟩ (by decide) (by decide)

example : bitsPerPixel viYV12.format 0 = 12 ∧ bitsPerPixel viYV12.format 0 * 8 = 96 :=
  ⟨by decide, (C99_bits viYV12 0 viYV12_ok ⟨by decide, by decide⟩ rfl (by decide) (by decide) (by decide) (by decide)).trans (by decide)⟩

example : getBiCompression ⟨2, 0, 8, 1, 0, 0, 3⟩ 0 = (true, 0) ∧ getBiCompression viYV12.format 0 = (true, 0x32315659) := by decide

example : ∃ t ∈ table, t.name = "v210" := by decide

end VS.Fourcc
