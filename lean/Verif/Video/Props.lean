import Verif.Video.LemmasY4m
import Verif.Video.LemmasTime

/-!
# C48, C49, C50: video output, y4m headers, timecodes
-/

namespace VS.Video
open VS VS.Format VS.Wave

/-- Raw output: no access outside of the frames and the buffer; frame after frame the rows of the planes without padding,
RGB planes as G, B, R, then the alpha plane. -/
theorem C48_video (vi : VInfo) (avi : Option VInfo) (frames : List (List Plane × Option (List Plane))) (hc : ClipOk vi)
    (ha : ∀ a, avi = some a → AlphaOk vi a) (hf : FramesOk vi avi frames) :
    videoFile false vi avi frames = .ok (some (frames.flatMap (pictures vi avi))) := by
  have h := outputFrames_eq (y4m := false) hc ha frames (buffer vi) hf.2 rfl
  unfold videoFile header
  simp only [Bool.false_eq_true, false_and, if_false]
  show (outputFrames false vi.format (alphaFormat avi) frames (buffer vi) >>= fun d => Res.ok (some ([] ++ d))) = _
  rw [h, Res.bind_ok]
  rfl

/-- The place of every sample byte: row `y` of plane `p` starts after the planes before it and `y` rows. -/
theorem C48_position (vi : VInfo) (planes : List Plane) (hf : FrameOk vi planes) (pre post : List Plane) (p : Plane)
    (ho : ordered (vi.format.colorFamily == cfRGB) planes = pre ++ p :: post) (y x : Nat) (hy : y < p.height)
    (hx : x < p.width * vi.format.bytesPerSample.toNat) :
    (picture vi.format planes)[(pre.flatMap (image vi.format.bytesPerSample.toNat)).length +
      y * (p.width * vi.format.bytesPerSample.toNat) + x]? = p.mem[y * p.stride + x]? := by
  have hmem : ∀ q ∈ ordered (vi.format.colorFamily == cfRGB) planes, q ∈ planes := by
    intro q hq
    unfold ordered at hq
    split at hq
    · simp only [List.mem_cons, List.not_mem_nil, or_false] at hq ⊢
      rcases hq with h | h | h <;> simp [h]
    · exact hq
  have hp : p ∈ planes := hmem p (by rw [ho]; simp)
  have hok := plane_ok hf hp
  generalize hb : vi.format.bytesPerSample.toNat = bytes at *
  have hrow : ∀ y' < p.height, ((p.mem.drop (y' * p.stride)).take (p.width * bytes)).length = p.width * bytes := by
    intro y' hy'
    have h1 : (y' + 1) * p.stride ≤ p.height * p.stride := Nat.mul_le_mul_right _ hy'
    have h2 := hok.mem
    have h3 := hok.stride
    rw [Nat.add_mul, Nat.one_mul] at h1
    rw [Nat.mul_comm] at h2
    rw [List.length_take, List.length_drop]
    omega
  have hxl : y * (p.width * bytes) + x < (image bytes p).length := by
    rw [image_length hok]
    have : (y + 1) * (p.width * bytes) ≤ p.height * (p.width * bytes) := Nat.mul_le_mul_right _ hy
    rw [Nat.add_mul, Nat.one_mul] at this
    omega
  unfold picture
  rw [ho, hb, List.flatMap_append, List.flatMap_cons, Nat.add_assoc, List.getElem?_append_right (by omega), Nat.add_sub_cancel_left,
    List.getElem?_append_left hxl]
  unfold image
  rw [flatMap_get _ (p.width * bytes) (List.range p.height) y x y (by simp [hy]) ?_ (by rw [hrow y hy]; exact hx)]
  · rw [List.getElem?_take, if_pos hx, List.getElem?_drop]
  · intro k z hk hz
    rw [List.getElem?_range (by omega)] at hz
    cases hz
    exact hrow k (by omega)

/-- A y4m file tells everything about the clip, and the pictures are recovered from it. -/
theorem C49_y4m_partial (vi : VInfo) (frames : List (List Plane × Option (List Plane))) (hc : ClipOk vi)
    (hfam : (vi.format.colorFamily = cfGray ∧ vi.format.sampleType ≠ stFloat) ∨ (vi.format.colorFamily = cfYUV ∧ Named vi))
    (hf : FramesOk vi none frames) :
    ∃ t, videoFile true vi none frames = .ok (some t) ∧
      readY4m t = some (describe vi, frames.map fun x => picture vi.format x.1) := by
  have hfa := Facts.of hc
  obtain ⟨c, h1, h2, h3, h4⟩ := format_ok hfa hfam
  have hh := header_fields hfa hc h1 h2
  have hr := readHeader_ok (w := vi.width.toNat) (h := vi.height.toNat) (n := vi.fpsNum.toNat) (d := vi.fpsDen.toNat)
    (f := vi.numFrames.toNat) h3 h4
  have hplain : Plain (67 :: c) := Plain.cons (by decide) h3
  have hfam' : vi.format.colorFamily = cfGray ∨ vi.format.colorFamily = cfYUV := by
    rcases hfam with h | h
    · exact Or.inl h.1
    · exact Or.inr h.1
  have hout := outputFrames_eq (y4m := true) (avi := none) hc (fun _ h => nomatch h) frames (buffer vi) hf.2 rfl
  have hrec : frames.flatMap (record true vi none) =
      (frames.map fun x => picture vi.format x.1).flatMap fun x => text "FRAME\n" ++ x := by
    rw [List.flatMap_map]
    congr 1
    funext x
    show (Json.asc "FRAME\n") ++ (picture vi.format x.1 ++ []) = _
    rw [List.append_nil]
    rfl
  have hno : ∀ x ∈ (text "YUV4MPEG2" ++ 32 :: (67 :: c ++ 32 :: (87 :: Json.dec vi.width.toNat ++ 32 ::
      (72 :: Json.dec vi.height.toNat ++ 32 :: (70 :: (Json.dec vi.fpsNum.toNat ++ 58 :: Json.dec vi.fpsDen.toNat) ++ 32 ::
      (text "Ip" ++ 32 :: (text "A0:0" ++ 32 :: (88 :: text "LENGTH=" ++ Json.dec vi.numFrames.toNat)))))))), x ≠ 10 := by
    have hd : ∀ n, ∀ x ∈ Json.dec n, x ≠ 10 := fun n x hx => (Plain.dec n x hx).2
    have happ : ∀ {a b : List Nat}, (∀ x ∈ a, x ≠ 10) → (∀ x ∈ b, x ≠ 10) → ∀ x ∈ a ++ b, x ≠ 10 := by
      intro a b ha hb x hx
      rcases List.mem_append.mp hx with h | h
      · exact ha x h
      · exact hb x h
    have hcons : ∀ {y : Nat} {b : List Nat}, y ≠ 10 → (∀ x ∈ b, x ≠ 10) → ∀ x ∈ y :: b, x ≠ 10 := by
      intro y b hy hb x hx
      rcases List.mem_cons.mp hx with h | h
      · rw [h]; exact hy
      · exact hb x h
    exact happ (by decide) (hcons (by decide) (happ (fun x hx => (hplain x hx).2) (hcons (by decide)
      (happ (hcons (by decide) (hd _)) (hcons (by decide) (happ (hcons (by decide) (hd _)) (hcons (by decide)
      (happ (hcons (by decide) (happ (hd _) (hcons (by decide) (hd _)))) (hcons (by decide) (happ (by decide) (hcons (by decide)
      (happ (by decide) (hcons (by decide) (happ (by decide) (hd _)))))))))))))))
  generalize hline : (text "YUV4MPEG2" ++ 32 :: (67 :: c ++ 32 :: (87 :: Json.dec vi.width.toNat ++ 32 ::
      (72 :: Json.dec vi.height.toNat ++ 32 :: (70 :: (Json.dec vi.fpsNum.toNat ++ 58 :: Json.dec vi.fpsDen.toNat) ++ 32 ::
      (text "Ip" ++ 32 :: (text "A0:0" ++ 32 :: (88 :: text "LENGTH=" ++ Json.dec vi.numFrames.toNat)))))))) = line at *
  refine ⟨line ++ [10] ++ frames.flatMap (record true vi none), ?_, ?_⟩
  · unfold videoFile header
    rw [if_neg (by
      intro h
      rcases h.2 with h | h
      · rcases hfam' with h' | h'
        · exact h.1 h'
        · exact h.2 h'
      · exact absurd h (by simp)), if_pos rfl, hh]
    show (outputFrames true vi.format (alphaFormat none) frames (buffer vi) >>= fun d => Res.ok (some (line ++ [10] ++ d))) = _
    rw [hout, Res.bind_ok]
  · obtain ⟨e1, e2⟩ := takeWhile_line (d := frames.flatMap (record true vi none)) hno
    unfold readY4m
    rw [e1, e2, hr]
    have hfr := readFrames_ok (size := frameSize (describe vi)) (frames.map fun x => picture vi.format x.1)
      (line ++ [10] ++ frames.flatMap (record true vi none)).length
      (by
        intro x hx
        rw [List.mem_map] at hx
        obtain ⟨z, hz, rfl⟩ := hx
        exact picture_length hfa hfam' (hf.2 z hz).1)
      (by
        rw [hrec, List.length_append, List.length_map]
        have : ∀ l : List (List Nat), l.length ≤ (l.flatMap fun x => text "FRAME\n" ++ x).length := by
          intro l
          induction l with
          | nil => simp
          | cons a t ih =>
            rw [List.flatMap_cons, List.length_append, List.length_append, List.length_cons]
            have : (text "FRAME\n").length = 6 := by decide
            omega
        have := this (frames.map fun x => picture vi.format x.1)
        rw [List.length_map] at this
        omega)
    rw [hrec] at hfr ⊢
    show (readFrames (frameSize (describe vi)) _ _ >>= fun f => some (describe vi, f)) = _
    rw [hfr]
    rfl

/-- When y4m output is refused. -/
theorem C49_refused (vi : VInfo) (avi : Option VInfo) (frames : List (List Plane × Option (List Plane)))
    (h : avi.isSome ∨ vi.format.colorFamily ∉ [cfGray, cfYUV] ∨ (vi.format.colorFamily = cfYUV ∧ ¬ Named vi)) :
    videoFile true vi avi frames = .ok none := by
  have hh : header true avi.isSome vi = none := by
    unfold header
    by_cases h1 : (vi.format.colorFamily ≠ cfGray ∧ vi.format.colorFamily ≠ cfYUV) ∨ avi.isSome
    · rw [if_pos ⟨rfl, h1⟩]
    · rw [if_neg (fun hc => h1 hc.2), if_pos rfl]
      rcases h with h | h | h
      · exact absurd (Or.inr h) h1
      · simp only [List.mem_cons, List.not_mem_nil, or_false, not_or] at h
        exact absurd (Or.inl h) h1
      · unfold y4mHeader y4mFormat
        rw [if_neg (by rw [h.1]; decide), if_pos h.1, sub_none h.2]
  unfold videoFile
  rw [hh]

/-- Gray clips of 16-bit integers and of half precision numbers give the same y4m files. -/
theorem C49_gray_float_refuted : ∃ vi vi' : VInfo, ClipOk vi ∧ ClipOk vi' ∧ describe vi ≠ describe vi' ∧
    ∀ frames, videoFile true vi none frames = videoFile true vi' none frames := by
  refine ⟨⟨⟨1, 0, 16, 2, 0, 0, 1⟩, 24, 1, 640, 480, 100⟩, ⟨⟨1, 1, 16, 2, 0, 0, 1⟩, 24, 1, 640, 480, 100⟩,
    ⟨by decide +kernel, by decide, by decide, by decide⟩, ⟨by decide +kernel, by decide, by decide, by decide⟩, by decide, ?_⟩
  intro frames
  have : ∀ (l : List (List Plane × Option (List Plane))) (buf : List Nat),
      outputFrames true ⟨1, 0, 16, 2, 0, 0, 1⟩ VFmt.zero l buf = outputFrames true ⟨1, 1, 16, 2, 0, 0, 1⟩ VFmt.zero l buf := by
    intro l
    induction l with
    | nil => intro buf; rfl
    | cons x t ih =>
      intro buf
      have hp : ∀ p b, outputFrame ⟨1, 0, 16, 2, 0, 0, 1⟩ p b = outputFrame ⟨1, 1, 16, 2, 0, 0, 1⟩ p b := by
        intro p b
        unfold outputFrame
        show outputPlanes _ p 1 0 b = outputPlanes _ p 1 0 b
        unfold outputPlanes
        rfl
      match x with
      | (p, none) =>
        simp only [outputFrames]
        rw [hp]
        congr 1
        funext a
        rw [ih]
      | (p, some q) =>
        simp only [outputFrames]
        rw [hp]
        congr 1
        funext a
        congr 1
        funext b
        rw [ih]
  show (outputFrames true _ VFmt.zero frames _ >>= fun d => Res.ok (some (_ ++ d))) = _
  rw [this]
  rfl

/-! ## Timecodes -/

/-- The sum of the durations of the first `k` frames, in seconds. -/
def elapsed (durations : List (Int × Int)) (k : Nat) : Rat := ((durations.take k).map fun d => (d.1 : Rat) / d.2).foldl (· + ·) 0

/-- The durations of frames up to the first one without a positive duration, and whether there is such a frame. -/
def known : List (Option Int × Option Int) → List (Int × Int) × Bool
  | (some n, some d) :: t => if 0 < n ∧ 0 < d then ((n, d) :: (known t).1, (known t).2) else ([], true)
  | [] => ([], false)
  | _ => ([], true)

theorem foldl_start (l : List Rat) : ∀ s, l.foldl (· + ·) s = s + l.foldl (· + ·) 0 := by
  induction l with
  | nil => intro s; show s = s + 0; grind
  | cons a l ih =>
    intro s
    show l.foldl (· + ·) (s + a) = s + l.foldl (· + ·) (0 + a)
    rw [ih (s + a), ih (0 + a)]
    grind

theorem elapsed_cons (d : Int × Int) (l : List (Int × Int)) (k : Nat) :
    elapsed (d :: l) (k + 1) = (d.1 : Rat) / d.2 + elapsed l k := by
  show ((l.take k).map _).foldl (· + ·) (0 + (d.1 : Rat) / d.2) = _
  rw [foldl_start]
  unfold elapsed
  grind

theorem timecodes_exact (c : Counts) : ∀ frames : List (Option Int × Option Int),
    timecodes (fun x => x) frames c = ((List.range ((known frames).1.length + if (known frames).2 then 1 else 0)).map
      fun k => (fold (fun x => x) c 0 + elapsed (known frames).1 k) * 1000, (known frames).2) := by
  intro frames
  induction frames generalizing c with
  | nil => rfl
  | cons x t ih =>
    have bad : ([currentTimecode (fun x => x) c * 1000], true) = ((List.range (([] : List (Int × Int)).length + if true then 1 else 0)).map
        fun k => (fold (fun x => x) c 0 + elapsed [] k) * 1000, true) := by
      have : currentTimecode (fun x => x) c = fold (fun x => x) c 0 + elapsed [] 0 := by
        show fold (fun x => x) c 0 = fold (fun x => x) c 0 + 0
        grind
      rw [this]
      rfl
    match x with
    | (none, none) => exact bad
    | (none, some d) => exact bad
    | (some n, none) => exact bad
    | (some n, some d) =>
      by_cases h : 0 < n ∧ 0 < d
      · simp only [timecodes, known, if_pos h, if_neg (show ¬(d ≤ 0 ∨ n ≤ 0) by omega)]
        rw [ih, fold_bump_id]
        simp only [List.length_cons]
        rw [show (known t).1.length + 1 + (if (known t).2 then 1 else 0) = ((known t).1.length + if (known t).2 then 1 else 0) + 1 by omega,
          List.range_succ_eq_map, List.map_cons, List.map_map]
        refine Prod.ext ?_ rfl
        show _ :: _ = _ :: _
        congr 1
        · show fold (fun x => x) c 0 * 1000 = (fold (fun x => x) c 0 + 0) * 1000
          grind
        · apply List.map_congr_left
          intro k _
          show _ = (fold _ c 0 + elapsed ((n, d) :: (known t).1) (k + 1)) * 1000
          rw [elapsed_cons]
          grind
      · simp only [timecodes, known, if_neg h, if_pos (show d ≤ 0 ∨ n ≤ 0 by omega)]
        exact bad

/-- In exact arithmetic line `k` is the time at which frame `k` starts, in milliseconds.  The output ends with an error at
the first frame without a positive duration, after its line. -/
theorem C50_exact (frames : List (Option Int × Option Int)) :
    timecodes (fun x => x) frames [] =
      ((List.range ((known frames).1.length + if (known frames).2 then 1 else 0)).map fun k => elapsed (known frames).1 k * 1000,
        (known frames).2) := by
  rw [timecodes_exact]
  refine Prod.ext ?_ rfl
  apply List.map_congr_left
  intro k _
  show (0 + _) * 1000 = _
  grind

/-- With any rounding of the intermediate results the lines never go backwards. -/
theorem C50_monotone (rnd : Rat → Rat) (r : Rounding rnd) (frames : List (Option Int × Option Int)) :
    (timecodes rnd frames []).1.Pairwise (· ≤ ·) := by
  have key : ∀ (frames : List (Option Int × Option Int)) (c : Counts), Pos c →
      (∀ x ∈ (timecodes rnd frames c).1, rnd (currentTimecode rnd c * 1000) ≤ x) ∧ (timecodes rnd frames c).1.Pairwise (· ≤ ·) := by
    intro frames
    induction frames with
    | nil => intro c _; exact ⟨fun x h => (nomatch h), List.Pairwise.nil⟩
    | cons x t ih =>
      intro c hp
      have bad : (∀ x ∈ [rnd (currentTimecode rnd c * 1000)], rnd (currentTimecode rnd c * 1000) ≤ x) ∧
          [rnd (currentTimecode rnd c * 1000)].Pairwise (· ≤ ·) := by
        refine ⟨fun x hx => ?_, List.pairwise_singleton _ _⟩
        rw [List.mem_singleton.mp hx]
        exact Rat.le_refl
      match x with
      | (none, none) => exact bad
      | (none, some d) => exact bad
      | (some n, none) => exact bad
      | (some n, some d) =>
        by_cases h : d ≤ 0 ∨ n ≤ 0
        · simp only [timecodes, if_pos h]
          exact bad
        · simp only [timecodes, if_neg h]
          have hn : 0 < n := by omega
          have hd : 0 < d := by omega
          obtain ⟨i1, i2⟩ := ih (bump (n, d) c) (Pos.bump hn hd hp)
          have hle : rnd (currentTimecode rnd c * 1000) ≤ rnd (currentTimecode rnd (bump (n, d) c) * 1000) := by
            apply r.mono
            apply Rat.mul_le_mul_of_nonneg_right _ (by decide)
            exact fold_bump r hn hd c hp r.zero
          have hall : ∀ x ∈ (timecodes rnd t (bump (n, d) c)).1, rnd (currentTimecode rnd c * 1000) ≤ x :=
            fun x hx => Rat.le_trans hle (i1 x hx)
          refine ⟨?_, List.pairwise_cons.mpr ⟨hall, i2⟩⟩
          intro x hx
          rcases List.mem_cons.mp hx with rfl | hx
          · exact Rat.le_refl
          · exact hall x hx
  exact (key frames [] (fun _ h => nomatch h)).2

/-! ## Examples -/

/-- 4:2:0, 10 bits, 4x2 pixels, rows 16 bytes apart. -/
def vi420 : VInfo := ⟨⟨3, 0, 10, 2, 1, 1, 3⟩, 30000, 1001, 4, 2, 1⟩
def planes420 : List Plane := [⟨4, 2, 16, List.range 32⟩, ⟨2, 1, 16, List.range 16⟩, ⟨2, 1, 16, List.range' 100 16⟩]

theorem vi420_ok : ClipOk vi420 := ⟨by decide +kernel, by decide, by decide, by decide⟩

theorem planes420_ok : FrameOk vi420 planes420 := by
  refine ⟨rfl, ?_, ?_, by decide, by decide⟩ <;>
  · intro i p h
    match i, h with
    | 0, h => cases h; rfl
    | 1, h => cases h; rfl
    | 2, h => cases h; rfl
    | n + 3, h => simp [planes420] at h

theorem frames420_ok : FramesOk vi420 none [(planes420, none)] := by
  refine ⟨rfl, ?_⟩
  intro x hx
  rw [List.mem_singleton.mp hx]
  exact ⟨planes420_ok, trivial⟩

example : ∃ t, videoFile true vi420 none [(planes420, none)] = .ok (some t) ∧
    readY4m t = some (⟨false, 1, 1, 10, false, 4, 2, 30000, 1001, 1⟩,
      [[0, 1, 2, 3, 4, 5, 6, 7, 16, 17, 18, 19, 20, 21, 22, 23, 0, 1, 2, 3, 100, 101, 102, 103]]) :=
  C49_y4m_partial vi420 _ vi420_ok (Or.inr ⟨rfl, by unfold Named; decide⟩) frames420_ok
example : videoFile false vi420 none [(planes420, none)] = .ok (some [0, 1, 2, 3, 4, 5, 6, 7, 16, 17, 18, 19, 20, 21, 22, 23, 0, 1, 2, 3, 100, 101, 102, 103]) :=
  C48_video vi420 none _ vi420_ok (fun _ h => nomatch h) frames420_ok
/-- RGB planes are written as G, B, R, and the alpha plane follows. -/
example : videoFile false ⟨⟨2, 0, 8, 1, 0, 0, 3⟩, 25, 1, 2, 1, 1⟩ (some ⟨⟨1, 0, 8, 1, 0, 0, 1⟩, 25, 1, 2, 1, 1⟩)
    [([⟨2, 1, 4, [1, 2, 0, 0]⟩, ⟨2, 1, 4, [3, 4, 0, 0]⟩, ⟨2, 1, 4, [5, 6, 0, 0]⟩], some [⟨2, 1, 2, [7, 8]⟩])] =
    .ok (some [3, 4, 5, 6, 1, 2, 7, 8]) := by decide
example : videoFile true ⟨⟨3, 0, 8, 1, 3, 0, 3⟩, 25, 1, 8, 1, 1⟩ none [] = .ok none := by decide
/-- Two frames of 1001/30000 s, one of 1/24 s, then a frame without duration. -/
example : timecodes (fun x => x) [(some 1001, some 30000), (some 1, some 24), (some 1001, some 30000), (none, none), (some 1, some 1)] [] =
    ([0, 1001 / 30, 1001 / 30 + 125 / 3, 1001 / 15 + 125 / 3], true) := by decide +kernel

end VS.Video
