import Verif.Video.Lemmas
import Verif.Json.Lemmas

/-!
# Helper lemmas: y4m files
-/

namespace VS.Video
open VS VS.Format VS.Wave

theorem split_append (sep : Nat) (b : List Nat) : ∀ a : List Nat, (∀ x ∈ a, x ≠ sep) → split sep (a ++ sep :: b) = a :: split sep b
  | [], _ => by simp [split]
  | x :: t, h => by
    have ih := split_append sep b t (fun y hy => h y (by simp [hy]))
    rw [List.cons_append, split, if_neg (h x (by simp)), ih]

theorem split_one (sep : Nat) : ∀ a : List Nat, (∀ x ∈ a, x ≠ sep) → split sep a = [a]
  | [], _ => rfl
  | x :: t, h => by
    have ih := split_one sep t (fun y hy => h y (by simp [hy]))
    rw [split, if_neg (h x (by simp)), ih]

theorem decimal_nat {i : Int} (h : 0 ≤ i) : Json.decimal i = Json.dec i.toNat := by
  unfold Json.decimal
  rw [if_neg (by omega), List.nil_append, show i.natAbs = i.toNat by omega]

theorem number_dec (n : Nat) : number (Json.dec n) = some n := by
  have h1 := Json.dec_ne_nil n
  have h2 : (Json.dec n).all isDigit = true := by
    rw [List.all_eq_true]
    exact Json.dec_digits n
  unfold number
  rw [if_pos ⟨h1, h2⟩]
  congr 1
  exact Json.digits_dec n

theorem dec_ge {n : Nat} : ∀ x ∈ Json.dec n, 48 ≤ x ∧ x ≤ 57 := by
  intro x hx
  have := Json.dec_digits n x hx
  simp only [Json.isDigit, Bool.and_eq_true, decide_eq_true_eq] at this
  exact this

/-- Texts without blanks, newlines and colons. -/
def Plain (l : List Nat) : Prop := ∀ x ∈ l, x ≠ 32 ∧ x ≠ 10

theorem Plain.dec (n : Nat) : Plain (Json.dec n) := fun x hx => by
  have := dec_ge x hx
  omega

theorem Plain.append {a b : List Nat} (ha : Plain a) (hb : Plain b) : Plain (a ++ b) := by
  intro x hx
  rcases List.mem_append.mp hx with h | h
  · exact ha x h
  · exact hb x h

theorem Plain.cons {a : Nat} {b : List Nat} (ha : a ≠ 32 ∧ a ≠ 10) (hb : Plain b) : Plain (a :: b) := by
  intro x hx
  rcases List.mem_cons.mp hx with h | h
  · rw [h]; exact ha
  · exact hb x h

theorem depth_int {b : Nat} : depth (112 :: Json.dec b) = some (b, false) := by
  have h1 : ∀ y, 57 < y → Json.dec b ≠ [y] := fun y hy h => by
    have := dec_ge (n := b) y (by rw [h]; simp)
    omega
  unfold depth
  rw [if_neg (by simp), if_neg (by intro h; exact h1 104 (by omega) (by simpa [text] using h)),
    if_neg (by intro h; exact h1 115 (by omega) (by simpa [text] using h)), if_pos (show (112 :: Json.dec b).head? = some 112 from rfl)]
  show (number (Json.dec b)).map _ = _
  rw [number_dec]
  rfl

/-- The subsampling identifiers. -/
theorem sub_ok {w h : Int} (hs : (w, h) ∈ [((0 : Int), (0 : Int)), (0, 1), (1, 0), (1, 1), (2, 0), (2, 2)]) :
    ∃ s, subName w h = some s ∧ s.length = 3 ∧ sub s = some (w.toNat, h.toNat) ∧ Plain s ∧ s.head? = some 52 := by
  simp only [List.mem_cons, List.not_mem_nil, or_false, Prod.mk.injEq] at hs
  unfold Plain
  rcases hs with ⟨rfl, rfl⟩ | ⟨rfl, rfl⟩ | ⟨rfl, rfl⟩ | ⟨rfl, rfl⟩ | ⟨rfl, rfl⟩ | ⟨rfl, rfl⟩ <;>
    exact ⟨_, rfl, rfl, by decide, by decide, rfl⟩

theorem sub_none {w h : Int} (hs : (w, h) ∉ [((0 : Int), (0 : Int)), (0, 1), (1, 0), (1, 1), (2, 0), (2, 2)]) :
    subName w h = none := by
  simp only [List.mem_cons, List.not_mem_nil, or_false, Prod.mk.injEq, not_or] at hs
  unfold subName
  rw [if_neg (by omega), if_neg (by omega), if_neg (by omega), if_neg (by omega), if_neg (by omega), if_neg (by omega)]

theorem colour_yuv {s d : List Nat} {ss : Nat × Nat} {dd : Nat × Bool} (hl : s.length = 3) (hs : sub s = some ss)
    (hh : s.head? = some 52) (hd : depth d = some dd) : colour (s ++ d) = some (false, ss, dd) := by
  unfold colour
  rw [if_neg, List.take_left' hl, List.drop_left' hl, hs, hd]
  · rfl
  · match s, hh with
    | a :: t, hh =>
      have : a = 52 := by simpa using hh
      subst this
      intro h
      simp [text] at h

theorem format_ok {vi : VInfo} (hf : Facts vi)
    (hfam : (vi.format.colorFamily = cfGray ∧ vi.format.sampleType ≠ stFloat) ∨ (vi.format.colorFamily = cfYUV ∧ Named vi)) :
    ∃ c, y4mFormat vi.format = some c ∧ c ≠ [] ∧ Plain c ∧
      colour c = some ((describe vi).gray, ((describe vi).subW, (describe vi).subH), ((describe vi).bits, (describe vi).float)) := by
  have hb := hf.bits
  rcases hfam with ⟨hg, hst⟩ | ⟨hg, hn⟩
  · obtain ⟨hw, hh⟩ := hf.gray hg
    have e1 : (describe vi).gray = true := by simp [describe, hg]
    have e2 : (describe vi).float = false := by simp [describe, hst]
    have e3 : (describe vi).subW = 0 := by simp [describe, hw]
    have e4 : (describe vi).subH = 0 := by simp [describe, hh]
    rw [e1, e2, e3, e4]
    unfold y4mFormat
    rw [if_pos hg]
    refine ⟨_, rfl, by simp [Json.asc], ?_, ?_⟩
    · apply Plain.append
      · unfold Plain; decide
      · split
        · rw [decimal_nat (by omega)]; exact Plain.dec _
        · intro x hx; simp at hx
    · unfold colour
      have e0 : Json.asc "mono" = text "mono" := rfl
      have l0 : (text "mono").length = 4 := by decide
      rw [e0, List.take_left' l0, List.drop_left' l0, if_pos rfl]
      by_cases h8 : vi.format.bitsPerSample > 8
      · rw [if_pos h8, decimal_nat (by omega), if_neg (Json.dec_ne_nil _), number_dec]
        rfl
      · rw [if_neg h8, if_pos rfl]
        have : (describe vi).bits = 8 := by
          show vi.format.bitsPerSample.toNat = 8
          omega
        rw [this]
  · have hng : vi.format.colorFamily ≠ cfGray := by rw [hg]; decide
    have e1 : (describe vi).gray = false := by simp [describe, hng]
    obtain ⟨s, h1, h2, h3, h4, h5⟩ := sub_ok hn
    have hne : ∀ d : List Nat, s ++ d ≠ [] := by
      intro d h
      have := congrArg List.length h
      rw [List.length_append, h2] at this
      simp at this
    rw [e1]
    unfold y4mFormat
    rw [if_neg hng, if_pos hg, h1]
    simp only []
    rcases hf.type with ht | ⟨ht, hbits⟩
    · have e2 : (describe vi).float = false := by simp [describe, ht, stInteger, stFloat]
      rw [e2]
      by_cases h8 : vi.format.bitsPerSample > 8
      · rw [if_pos ⟨h8, ht⟩]
        refine ⟨_, rfl, ?_, ?_, ?_⟩
        · rw [List.append_assoc]; exact hne _
        · rw [decimal_nat (by omega)]
          exact (h4.append (by unfold Plain; decide)).append (Plain.dec _)
        · rw [List.append_assoc, decimal_nat (by omega)]
          exact colour_yuv h2 h3 h5 depth_int
      · rw [if_neg (fun h => h8 h.1), if_neg (by rw [ht]; decide)]
        have : (describe vi).bits = 8 := by
          show vi.format.bitsPerSample.toNat = 8
          omega
        refine ⟨_, rfl, ?_, h4, ?_⟩
        · have := hne []; rwa [List.append_nil] at this
        · rw [this]
          have := colour_yuv (d := []) h2 h3 h5 rfl
          rwa [List.append_nil] at this
    · have e2 : (describe vi).float = true := by simp [describe, ht]
      rw [e2, if_neg (by rw [ht]; intro h; exact absurd h.2 (by decide)), if_pos ht]
      refine ⟨_, rfl, ?_, ?_, ?_⟩
      · rw [List.append_assoc]; exact hne _
      · rcases hbits with hb' | hb' <;> rw [hb'] <;> exact (h4.append (by unfold Plain; decide)).append (by unfold Plain; decide)
      · rw [List.append_assoc]
        have hbb : (describe vi).bits = vi.format.bitsPerSample.toNat := rfl
        rw [hbb]
        rcases hbits with hb' | hb' <;> rw [hb'] <;> exact colour_yuv h2 h3 h5 (by decide)

/-- The line of the header as blank separated fields. -/
theorem header_fields {vi : VInfo} (hf : Facts vi) (hc : ClipOk vi) {c : List Nat} (h : y4mFormat vi.format = some c) (hne : c ≠ []) :
    y4mHeader vi = some ((text "YUV4MPEG2" ++ 32 :: (67 :: c ++ 32 :: (87 :: Json.dec vi.width.toNat ++ 32 ::
      (72 :: Json.dec vi.height.toNat ++ 32 :: (70 :: (Json.dec vi.fpsNum.toNat ++ 58 :: Json.dec vi.fpsDen.toNat) ++ 32 ::
      (text "Ip" ++ 32 :: (text "A0:0" ++ 32 :: (88 :: text "LENGTH=" ++ Json.dec vi.numFrames.toNat)))))))) ++ [10]) := by
  have h1 := hf.nums
  have h2 := hc.width
  have h3 := hc.height
  unfold y4mHeader
  rw [h]
  simp only []
  rw [if_neg (by simpa using hne), decimal_nat (by omega), decimal_nat (by omega), decimal_nat (by omega), decimal_nat (by omega),
    decimal_nat (by omega)]
  simp [Json.asc, text]

theorem readHeader_ok {c : List Nat} {w h n d f : Nat} {cc : Bool × (Nat × Nat) × (Nat × Bool)} (hp : Plain c) (hc : colour c = some cc) :
    readHeader (text "YUV4MPEG2" ++ 32 :: (67 :: c ++ 32 :: (87 :: Json.dec w ++ 32 ::
      (72 :: Json.dec h ++ 32 :: (70 :: (Json.dec n ++ 58 :: Json.dec d) ++ 32 ::
      (text "Ip" ++ 32 :: (text "A0:0" ++ 32 :: (88 :: text "LENGTH=" ++ Json.dec f)))))))) =
      some ⟨cc.1, cc.2.1.1, cc.2.1.2, cc.2.2.1, cc.2.2.2, w, h, n, d, f⟩ := by
  have nb : ∀ {l : List Nat}, Plain l → ∀ x ∈ l, x ≠ 32 := fun h x hx => (h x hx).1
  have hrate : rate (Json.dec n ++ 58 :: Json.dec d) = some (n, d) := by
    unfold rate
    rw [split_append 58 _ _ (fun x hx => by have := dec_ge x hx; omega), split_one 58 _ (fun x hx => by have := dec_ge x hx; omega)]
    simp only [number_dec]
    rfl
  have hcount : frameCount (text "LENGTH=" ++ Json.dec f) = some f := by
    unfold frameCount
    rw [if_pos (List.take_left' (by decide)), List.drop_left' (by decide), number_dec]
  unfold readHeader
  rw [split_append 32 _ _ (by decide), split_append 32 _ _ (nb (Plain.cons (by decide) hp)),
    split_append 32 _ _ (nb (Plain.cons (by decide) (Plain.dec _))), split_append 32 _ _ (nb (Plain.cons (by decide) (Plain.dec _))),
    split_append 32 _ _ (nb (Plain.cons (by decide) ((Plain.dec _).append (Plain.cons (by decide) (Plain.dec _))))),
    split_append 32 _ _ (by decide), split_append 32 _ _ (by decide),
    split_one 32 _ (nb ((show Plain (88 :: text "LENGTH=") by unfold Plain; decide).append (Plain.dec _)))]
  simp only [if_true]
  have f67 : ∀ rest, field ((67 :: c) :: rest) 67 = some c := fun rest => by simp [field]
  have f87 : ∀ l rest, field ((67 :: c) :: (87 :: l) :: rest) 87 = some l := fun l rest => by simp [field]
  have f72 : ∀ l1 l rest, field ((67 :: c) :: (87 :: l1) :: (72 :: l) :: rest) 72 = some l := fun l1 l rest => by simp [field]
  have f70 : ∀ l1 l2 l rest, field ((67 :: c) :: (87 :: l1) :: (72 :: l2) :: (70 :: l) :: rest) 70 = some l :=
    fun l1 l2 l rest => by simp [field]
  have f88 : ∀ l1 l2 l3 l, field [(67 :: c), (87 :: l1), (72 :: l2), (70 :: l3), text "Ip", text "A0:0", (88 :: l)] 88 = some l :=
    fun l1 l2 l3 l => by simp [field, text]
  rw [f67, f87, f72, f70]
  have e : (88 :: text "LENGTH=" ++ Json.dec f) = 88 :: (text "LENGTH=" ++ Json.dec f) := rfl
  rw [e, f88]
  simp only [Option.bind_eq_bind, Option.bind_some, hc, number_dec, hrate, hcount]

theorem takeWhile_line {l d : List Nat} (h : ∀ x ∈ l, x ≠ 10) :
    (l ++ [10] ++ d).takeWhile (· ≠ 10) = l ∧ ((l ++ [10] ++ d).dropWhile (· ≠ 10)).drop 1 = d := by
  induction l with
  | nil => simp
  | cons a t ih =>
    have h1 := h a (by simp)
    have ih := ih (fun x hx => h x (by simp [hx]))
    simp only [List.cons_append, List.append_assoc] at ih ⊢
    simp [List.takeWhile, List.dropWhile, h1] at ih ⊢
    exact ih

theorem readFrames_ok {size : Nat} : ∀ (l : List (List Nat)) (fuel : Nat), (∀ x ∈ l, x.length = size) → l.length ≤ fuel →
    readFrames size fuel (l.flatMap fun x => text "FRAME\n" ++ x) = some l
  | [], fuel, _, _ => by cases fuel <;> simp [readFrames]
  | a :: t, 0, _, h => by simp at h
  | a :: t, n + 1, hs, h => by
    have ih := readFrames_ok t n (fun x hx => hs x (by simp [hx])) (by simpa using h)
    have ha := hs a (by simp)
    have hd : (text "FRAME\n" ++ (a ++ t.flatMap fun x => text "FRAME\n" ++ x)).drop 6 = a ++ t.flatMap fun x => text "FRAME\n" ++ x :=
      List.drop_left' (by decide)
    rw [List.flatMap_cons, List.append_assoc, readFrames]
    rw [if_neg (by simp [text]), if_pos ⟨List.take_left' (by decide), by rw [hd, List.length_append]; omega⟩, hd,
      List.drop_left' ha, List.take_left' ha, ih]
    rfl

theorem picture_length {vi : VInfo} (hf : Facts vi) (hfam : vi.format.colorFamily = cfGray ∨ vi.format.colorFamily = cfYUV)
    {planes : List Plane} (h : FrameOk vi planes) : (picture vi.format planes).length = frameSize (describe vi) := by
  have hc := h.count
  have hb : sampleBytes (describe vi).bits = vi.format.bytesPerSample.toNat := hf.bytes.symm
  unfold frameSize
  rw [hb]
  have hw : (describe vi).width = vi.width.toNat := rfl
  have hh : (describe vi).height = vi.height.toNat := rfl
  have hsw : (describe vi).subW = vi.format.subSamplingW.toNat := rfl
  have hsh : (describe vi).subH = vi.format.subSamplingH.toNat := rfl
  rw [hw, hh, hsw, hsh]
  have hnr : (vi.format.colorFamily == cfRGB) = false := by
    rcases hfam with h | h <;> rw [h] <;> decide
  rcases hf.planes with ⟨hg, hn⟩ | ⟨hg, hn⟩
  · rw [hn] at hc
    have hgray : (describe vi).gray = true := by simp [describe, hg]
    match planes, hc, h with
    | [a], _, h =>
      have w0 := h.width 0 a rfl
      have h0 := h.height 0 a rfl
      simp only [picture, hnr, ordered, List.flatMap_cons, List.flatMap_nil, List.append_nil, hgray, if_true]
      rw [image_length (plane_ok h (by simp)), w0, h0]
      simp only [planeWidth, planeHeight, if_true, Nat.add_zero]
      ac_rfl
  · rw [hn] at hc
    have hgray : (describe vi).gray = false := by
      have : vi.format.colorFamily ≠ cfGray := by rcases hg with hg | hg <;> rw [hg] <;> decide
      simp [describe, this]
    match planes, hc, h with
    | [a, b, c], _, h =>
      have w0 := h.width 0 a rfl
      have h0 := h.height 0 a rfl
      have w1 := h.width 1 b rfl
      have h1 := h.height 1 b rfl
      have w2 := h.width 2 c rfl
      have h2 := h.height 2 c rfl
      simp only [picture, hnr, ordered, List.flatMap_cons, List.flatMap_nil, List.append_nil, hgray, List.length_append]
      rw [image_length (plane_ok h (p := a) (by simp)), image_length (plane_ok h (p := b) (by simp)),
        image_length (plane_ok h (p := c) (by simp)), w0, h0, w1, h1, w2, h2]
      simp only [planeWidth, planeHeight, if_true]
      rw [if_neg (by decide), if_neg (by decide), if_neg (by decide), if_neg (by decide), if_neg (by decide), Nat.add_mul]
      generalize vi.width.toNat / 2 ^ vi.format.subSamplingW.toNat = x
      generalize vi.height.toNat / 2 ^ vi.format.subSamplingH.toNat = y
      rw [Nat.mul_assoc 2, ← Nat.mul_assoc, ← Nat.mul_assoc, Nat.mul_comm vi.height.toNat, Nat.mul_comm y x]
      omega

end VS.Video
