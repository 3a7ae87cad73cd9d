import Verif.Format.Lemmas
import Verif.Rational.Props

/-! # Properties C19 and C20: format identifiers and format queries -/

namespace VS.Format
open VS

/-! ## C20 -/

/-- C20: `queryVideoFormat` succeeds exactly for an undefined colour family and for the documented
combinations.  On success the struct has the requested properties and fitting derived fields; the
undefined format is all zero. -/
theorem C20_query_video (c t b w h : Int) :
    ((queryVideoFormat c t b w h).1 = true ↔ c = cfUndefined ∨ Documented c t b w h) ∧
    (Documented c t b w h →
      GoodVideo (queryVideoFormat c t b w h).2 ∧
      (queryVideoFormat c t b w h).2.colorFamily = c ∧ (queryVideoFormat c t b w h).2.sampleType = t ∧
      (queryVideoFormat c t b w h).2.bitsPerSample = b ∧
      (queryVideoFormat c t b w h).2.subSamplingW = w ∧
      (queryVideoFormat c t b w h).2.subSamplingH = h) ∧
    (¬ Documented c t b w h → (queryVideoFormat c t b w h).2 = VFmt.zero) := by
  by_cases hc : c = cfUndefined
  · have nd : ¬ Documented c t b w h := by
      rintro ⟨d, _⟩; subst hc; revert d; decide
    simp [queryVideoFormat, hc]
    subst hc; exact fun d => absurd d nd
  · by_cases d : Documented c t b w h
    · have hv := (valid_iff hc).2 d
      have hb : b ≤ 32 := by obtain ⟨_, d, _⟩ := d; omega
      simp only [queryVideoFormat, hc, hv, if_false, Bool.not_true, Bool.false_eq_true]
      refine ⟨by simp [d], fun _ => ⟨⟨d, bytesLoop_smallest hb, rfl⟩, ?_⟩, fun n => absurd d n⟩
      simp
    · have hv : isValidVideoFormat c t b w h = false := by
        rw [← Bool.not_eq_true]; exact fun x => d ((valid_iff hc).1 x)
      simp only [queryVideoFormat, hc, hv, if_false, Bool.not_false, if_true]
      refine ⟨by simp [d], fun x => absurd x d, ?_⟩
      simp

example : Documented cfYUV stInteger 10 1 1 ∧
    (queryVideoFormat cfYUV stInteger 10 1 1) = (true, ⟨3, 0, 10, 2, 1, 1, 3⟩) := by decide +kernel
example : ¬ Documented cfRGB stInteger 8 1 0 ∧ (queryVideoFormat cfRGB stInteger 8 1 0).1 = false := by
  decide +kernel

/-- C20: a struct with a defined colour family passes the validity check of the core exactly when it
describes a documented format with fitting derived fields, that is when it is what
`queryVideoFormat` fills in. -/
theorem C20_struct_check (f : VFmt) (hc : f.colorFamily ≠ cfUndefined) :
    (isValidVideoStruct f = true ↔ GoodVideo f) ∧
    (GoodVideo f ↔ queryVideoFormat f.colorFamily f.sampleType f.bitsPerSample f.subSamplingW
      f.subSamplingH = (true, f)) := by
  have key : GoodVideo f ↔ queryVideoFormat f.colorFamily f.sampleType f.bitsPerSample f.subSamplingW
      f.subSamplingH = (true, f) := by
    constructor
    · intro g
      obtain ⟨_, q2, _⟩ := C20_query_video f.colorFamily f.sampleType f.bitsPerSample f.subSamplingW
        f.subSamplingH
      obtain ⟨⟨_, s, n⟩, e1, e2, e3, e4, e5⟩ := q2 g.1
      have ok := (C20_query_video f.colorFamily f.sampleType f.bitsPerSample f.subSamplingW
        f.subSamplingH).1.2 (Or.inr g.1)
      rw [e3] at s
      have e6 := smallestBytes_unique s g.2.1
      rw [e1, ← g.2.2] at n
      apply Prod.ext
      · exact ok
      · revert e1 e2 e3 e4 e5 e6 n
        generalize (queryVideoFormat f.colorFamily f.sampleType f.bitsPerSample f.subSamplingW
          f.subSamplingH).2 = q
        intro e1 e2 e3 e4 e5 e6 n
        cases q; cases f; simp_all
    · intro q
      have ok := (C20_query_video f.colorFamily f.sampleType f.bitsPerSample f.subSamplingW
        f.subSamplingH).1.1 (by rw [q])
      have d := ok.resolve_left hc
      have := ((C20_query_video f.colorFamily f.sampleType f.bitsPerSample f.subSamplingW
        f.subSamplingH).2.1 d).1
      rwa [q] at this
  refine ⟨?_, key⟩
  unfold isValidVideoStruct
  by_cases d : Documented f.colorFamily f.sampleType f.bitsPerSample f.subSamplingW f.subSamplingH
  · have hv := (valid_iff hc).2 d
    have hb : 8 ≤ f.bitsPerSample ∧ f.bitsPerSample ≤ 32 := by obtain ⟨_, d, _⟩ := d; omega
    have hs : ∀ x, SmallestBytes f.bitsPerSample x ↔ x = bytesLoop 31 1 f.bitsPerSample :=
      fun x => ⟨fun s => smallestBytes_unique s (bytesLoop_smallest hb.2),
        fun e => e ▸ bytesLoop_smallest hb.2⟩
    have fam := d.1
    simp only [hv, hc, GoodVideo, d, hs, true_and, if_false, Bool.not_true, Bool.false_eq_true]
    have hn : (if f.colorFamily = cfYUV ∨ f.colorFamily = cfRGB then (3 : Int) else 1) =
        (if f.colorFamily = cfGray then 1 else 3) := by
      rcases fam with e | e | e <;> rw [e] <;> rfl
    rw [hn]
    generalize (if f.colorFamily = cfGray then (1 : Int) else 3) = np
    have h3 : f.bitsPerSample ≤ 8 ∨ (8 < f.bitsPerSample ∧ f.bitsPerSample ≤ 16) ∨
        16 < f.bitsPerSample := by omega
    rcases h3 with h | h | h
    · rw [bytesLoop_1 h]; repeat' split
      all_goals simp
      all_goals omega
    · rw [bytesLoop_2 h.1 h.2]; repeat' split
      all_goals simp
      all_goals omega
    · rw [bytesLoop_4 h hb.2]; repeat' split
      all_goals simp
      all_goals omega
  · have hv : isValidVideoFormat f.colorFamily f.sampleType f.bitsPerSample f.subSamplingW
        f.subSamplingH = false := by
      rw [← Bool.not_eq_true]; exact fun x => d ((valid_iff hc).1 x)
    simp [hv, GoodVideo, d]

example : GoodVideo ⟨3, 0, 10, 2, 1, 1, 3⟩ :=
  ((C20_struct_check ⟨3, 0, 10, 2, 1, 1, 3⟩ (by decide)).2).2 (by decide +kernel)

/-- C20 is violated by the validity check for structs with an undefined colour family: a struct that
`queryVideoFormat` never fills in and that has left-over properties passes. -/
theorem C20_undefined_struct_refuted :
    ∃ f : VFmt, f.colorFamily = cfUndefined ∧ isValidVideoStruct f = true ∧
      ∀ t b w h, (queryVideoFormat cfUndefined t b w h).2 ≠ f :=
  ⟨⟨0, 1, 16, 0, 3, 2, 0⟩, rfl, by decide +kernel, by simp [queryVideoFormat, VFmt.zero]⟩

/-- C20 for audio: `queryAudioFormat` succeeds exactly for the documented combinations, and the
struct has the requested properties, one channel per bit of the layout and fitting sample size. -/
theorem C20_query_audio (t b : Int) (l : Nat) :
    (DocumentedAudio t b l → ∃ f, queryAudioFormat t b l = some f ∧ GoodAudio f ∧
      f.sampleType = t ∧ f.bitsPerSample = b ∧ f.channelLayout = l) ∧
    (¬ DocumentedAudio t b l → queryAudioFormat t b l = none) := by
  constructor
  · intro d
    have hv := validAudio_iff.2 d
    refine ⟨⟨t, b, bytesLoop 31 1 b, bitCount 64 l, l⟩, ?_, ⟨d, ?_, ?_⟩, rfl, rfl, rfl⟩
    · simp [queryAudioFormat, hv]
    · exact bytesLoop_smallest (by obtain ⟨d, _⟩ := d; simp only; omega)
    · simp only [bitCount_eq, channels]
  · intro d
    have hv : isValidAudioFormat t b l = false := by
      rw [← Bool.not_eq_true]; exact fun x => d (validAudio_iff.1 x)
    simp [queryAudioFormat, hv]

example : DocumentedAudio stInteger 24 0x8000000000000003 ∧
    queryAudioFormat stInteger 24 0x8000000000000003 = some ⟨0, 24, 4, 3, 0x8000000000000003⟩ := by
  refine ⟨⟨by decide, by decide⟩, by decide +kernel⟩

/-- C20 for audio: a struct passes the validity check exactly when it is what `queryAudioFormat`
fills in. -/
theorem C20_audio_struct_check (f : AFmt) : isValidAudioStruct f = true ↔ GoodAudio f := by
  unfold isValidAudioStruct
  by_cases d : DocumentedAudio f.sampleType f.bitsPerSample f.channelLayout
  · have hv := validAudio_iff.2 d
    have hb : 16 ≤ f.bitsPerSample ∧ f.bitsPerSample ≤ 32 := by obtain ⟨d, _⟩ := d; omega
    have hs : ∀ x, SmallestBytes f.bitsPerSample x ↔ x = bytesLoop 31 1 f.bitsPerSample :=
      fun x => ⟨fun s => smallestBytes_unique s (bytesLoop_smallest hb.2),
        fun e => e ▸ bytesLoop_smallest hb.2⟩
    simp only [hv, GoodAudio, d, hs, true_and, bitCount_eq, channels, Bool.not_true,
      Bool.false_eq_true, if_false]
    by_cases h : f.bitsPerSample ≤ 16
    · rw [bytesLoop_2 (by omega) h]; repeat' split
      all_goals simp
      all_goals omega
    · rw [bytesLoop_4 (by omega) hb.2]; repeat' split
      all_goals simp
      all_goals omega
  · have hv : isValidAudioFormat f.sampleType f.bitsPerSample f.channelLayout = false := by
      rw [← Bool.not_eq_true]; exact fun x => d (validAudio_iff.1 x)
    simp [hv, GoodAudio, d]

example : isValidAudioStruct ⟨0, 24, 4, 3, 0x8000000000000003⟩ = true := by decide +kernel

theorem reduce_pos {n d : Int} (hn0 : 0 ≤ n) (hd0 : 0 < d) (hn : n ≤ INT64_MAX) (hd : d ≤ INT64_MAX) :
    reduceRational n d = .ok (n.tdiv (Int.gcd n d : Nat), d.tdiv (Int.gcd n d : Nat)) := by
  have hz : d ≠ 0 := by omega
  have e := C22_reduceRational n d hz ⟨by simp only [INT64_MIN]; omega, hn⟩
    ⟨by simp only [INT64_MIN]; omega, hd⟩
  simp only [← Rat.divInt_eq_div] at e
  rw [e, tdiv_gcd_num hz, tdiv_gcd_den hz]

theorem dims (vi : VInfo) (hr : ¬ (vi.fpsDen < 0 ∨ vi.fpsNum < 0 ∨ vi.height < 0 ∨ vi.width < 0 ∨
    vi.numFrames < 1)) :
    (if (decide (vi.height ≠ 0) ^^ decide (vi.width ≠ 0)) = true then Res.ok false else Res.ok true) =
      Res.ok (decide (0 ≤ vi.fpsNum ∧ 0 ≤ vi.fpsDen ∧ 0 ≤ vi.width ∧ 0 ≤ vi.height ∧
        1 ≤ vi.numFrames ∧ (vi.width = 0 ↔ vi.height = 0))) := by
  by_cases hw : vi.width = 0 <;> by_cases hh : vi.height = 0 <;> simp [hw, hh] <;> omega

theorem gcd_one_of {n d : Int} (hd0 : 0 < d) (e : d.tdiv (Int.gcd n d : Nat) = d) : Int.gcd n d = 1 := by
  have hg : 0 < Int.gcd n d := Int.gcd_pos_of_ne_zero_right n (by omega)
  obtain ⟨k, hk⟩ := Int.gcd_dvd_right n d
  generalize Int.gcd n d = g at *
  rw [hk, Int.mul_tdiv_cancel_left _ (by omega)] at e
  have : 0 < k := by
    rcases Int.lt_or_le 0 k with h | h
    · exact h
    · have := Int.mul_nonpos_of_nonneg_of_nonpos (a := (g : Int)) (by omega) h; omega
  have h2 : (g : Int) * k = 1 * k := by omega
  have := Int.eq_of_mul_eq_mul_right (by omega) h2
  omega

/-- C20 for clips: a video description is accepted exactly when its format is, no number is
negative, there is a frame, the frame rate is reduced and the size is either constant or not.  The
check itself never overflows. -/
theorem C20_video_info (vi : VInfo) (hn : InI64 vi.fpsNum) (hd : InI64 vi.fpsDen) :
    isValidVideoInfo vi = .ok (decide (isValidVideoStruct vi.format = true ∧
      ReducedRate vi.fpsNum vi.fpsDen ∧
      0 ≤ vi.fpsNum ∧ 0 ≤ vi.fpsDen ∧ 0 ≤ vi.width ∧ 0 ≤ vi.height ∧ 1 ≤ vi.numFrames ∧
      (vi.width = 0 ↔ vi.height = 0))) := by
  unfold isValidVideoInfo
  by_cases hv : isValidVideoStruct vi.format = true
  · by_cases hr : vi.fpsDen < 0 ∨ vi.fpsNum < 0 ∨ vi.height < 0 ∨ vi.width < 0 ∨ vi.numFrames < 1
    · simp only [hv, hr, if_true, Bool.not_true, Bool.false_eq_true, if_false, true_and]
      congr 1; symm; rw [decide_eq_false_iff_not]; omega
    · simp only [hv, Bool.not_true, Bool.false_eq_true, if_false, true_and, if_neg hr]
      by_cases hz : vi.fpsDen = 0
      · have rr : ReducedRate vi.fpsNum vi.fpsDen := Or.inl hz
        have e : reduceRational vi.fpsNum vi.fpsDen = .ok (vi.fpsNum, vi.fpsDen) := by
          rw [hz]; exact C22_zero_den _ _ _
        simp only [e, Res.bind_ok, ne_eq, not_true_eq_false, or_self, if_false, rr, true_and]
        exact dims vi hr
      · rw [reduce_pos (by omega) (by omega) hn.2 hd.2]
        simp only [Res.bind_ok]
        by_cases hg : Int.gcd vi.fpsNum vi.fpsDen = 1
        · have rr : ReducedRate vi.fpsNum vi.fpsDen := Or.inr hg
          simp only [hg, Int.natCast_one, Int.tdiv_one, ne_eq, not_true_eq_false, or_self, if_false,
            rr, true_and]
          exact dims vi hr
        · have rr : ¬ ReducedRate vi.fpsNum vi.fpsDen := by simp [ReducedRate, hz, hg]
          rw [if_pos (Or.inr fun e => hg (gcd_one_of (by omega) e))]
          simp [rr]
  · simp [hv]

example : isValidVideoInfo ⟨⟨3, 0, 8, 1, 1, 1, 3⟩, 24000, 1001, 640, 480, 10⟩ = .ok true ∧
    isValidVideoInfo ⟨⟨3, 0, 8, 1, 1, 1, 3⟩, 50, 2, 640, 480, 10⟩ = .ok false := by decide +kernel

/-- C20 for clips: an audio description is accepted exactly when its format is, there is a sample and
the rate is positive. -/
theorem C20_audio_info (ai : AInfo) :
    isValidAudioInfo ai = true ↔
      GoodAudio ai.format ∧ 1 ≤ ai.sampleRate ∧ 1 ≤ ai.numSamples := by
  unfold isValidAudioInfo
  rw [← C20_audio_struct_check]
  repeat' split
  all_goals simp_all
  all_goals omega

/-! ## C19 -/

/-- C19: the identifier of a documented format decodes to exactly that format, in every core. -/
theorem C19_decode_encode (r : Reg) (c t b w h : Int) (d : Documented c t b w h) :
    getVideoFormatByID r (queryVideoFormatID c t b w h) = queryVideoFormat c t b w h ∧
    (queryVideoFormat c t b w h).1 = true := by
  refine ⟨?_, (C20_query_video c t b w h).1.2 (Or.inr d)⟩
  have e := id_int d
  generalize queryVideoFormatID c t b w h = id at e ⊢
  obtain ⟨a0, a1, a2, a3, a4, a5, a6, a7, a8, a9⟩ := bounds d
  clear d
  unfold getVideoFormatByID
  rw [if_neg (by rw [isV3Id_iff (by omega)]; omega)]
  rw [f28, f24, f16, f8, f0]
  congr 1 <;> omega

example (r : Reg) : Documented cfYUV stFloat 16 2 0 ∧ queryVideoFormatID cfYUV stFloat 16 2 0 = 0x31100200 ∧
    getVideoFormatByID r 0x31100200 = (true, ⟨3, 1, 16, 2, 2, 0, 3⟩) := by
  refine ⟨by decide, by decide +kernel, ?_⟩
  exact (C19_decode_encode r cfYUV stFloat 16 2 0 (by decide)).1

/-- C19: an identifier is zero exactly when the format is not a documented one.  All others are
32 bit numbers outside the range of the identifiers of version 3. -/
theorem C19_zero_iff (c t b w h : Int) :
    (queryVideoFormatID c t b w h = 0 ↔ ¬ Documented c t b w h) ∧
    (Documented c t b w h →
      16777216 ≤ queryVideoFormatID c t b w h ∧ queryVideoFormatID c t b w h < 4294967296) := by
  by_cases d : Documented c t b w h
  · have e := id_int d
    have d' := d
    obtain ⟨a0, a1, a2, a3, a4, a5, a6, a7, a8, a9⟩ := bounds d
    have : 16777216 ≤ queryVideoFormatID c t b w h ∧ queryVideoFormatID c t b w h < 4294967296 := by
      clear d d'; omega
    refine ⟨⟨fun z => by omega, fun n => absurd d' n⟩, fun _ => this⟩
  · refine ⟨⟨fun _ => d, fun _ => ?_⟩, fun x => absurd x d⟩
    unfold queryVideoFormatID
    rw [if_pos]
    by_cases hc : c = cfUndefined
    · simp [hc]
    · have hv : isValidVideoFormat c t b w h = false := by
        rw [← Bool.not_eq_true]; exact fun x => d ((valid_iff hc).1 x)
      simp [hv]

/-- C19: different documented formats have different identifiers. -/
theorem C19_injective (c t b w h c' t' b' w' h' : Int) (d : Documented c t b w h)
    (d' : Documented c' t' b' w' h')
    (e : queryVideoFormatID c t b w h = queryVideoFormatID c' t' b' w' h') :
    c = c' ∧ t = t' ∧ b = b' ∧ w = w' ∧ h = h' := by
  have e1 := id_int d
  have e2 := id_int d'
  obtain ⟨a0, a1, a2, a3, a4, a5, a6, a7, a8, a9⟩ := bounds d
  obtain ⟨b0, b1, b2, b3, b4, b5, b6, b7, b8, b9⟩ := bounds d'
  clear d d'
  omega

example : Documented cfYUV stInteger 8 1 0 ∧ Documented cfYUV stInteger 8 0 1 ∧
    queryVideoFormatID cfYUV stInteger 8 1 0 ≠ queryVideoFormatID cfYUV stInteger 8 0 1 := by
  decide +kernel

/-- C19: decoding yields only good formats or the undefined one, for every identifier and every core;
and an identifier outside the version 3 range that decodes to a defined format is the identifier of
that format. -/
theorem C19_encode_decode (r : Reg) (id : Nat) (hid : id < 4294967296)
    (ok : (getVideoFormatByID r id).1 = true) :
    ((getVideoFormatByID r id).2 = VFmt.zero ∨ GoodVideo (getVideoFormatByID r id).2) ∧
    ((getVideoFormatByID r id).2 ≠ VFmt.zero → 16777216 ≤ id →
      queryVideoFormatID (getVideoFormatByID r id).2.colorFamily
        (getVideoFormatByID r id).2.sampleType (getVideoFormatByID r id).2.bitsPerSample
        (getVideoFormatByID r id).2.subSamplingW (getVideoFormatByID r id).2.subSamplingH = id) := by
  have good : ∀ c t b w h, (queryVideoFormat c t b w h).1 = true →
      (queryVideoFormat c t b w h).2 = VFmt.zero ∨ GoodVideo (queryVideoFormat c t b w h).2 := by
    intro c t b w h _
    by_cases d : Documented c t b w h
    · exact Or.inr ((C20_query_video c t b w h).2.1 d).1
    · exact Or.inl ((C20_query_video c t b w h).2.2 d)
  constructor
  · revert ok
    unfold getVideoFormatByID videoFormatFromV3
    repeat' split
    all_goals exact good _ _ _ _ _
  · intro nz lo
    have e : getVideoFormatByID r id = queryVideoFormat ((id / 268435456 % 16 : Nat) : Int)
        ((id / 16777216 % 16 : Nat) : Int) ((id / 65536 % 256 : Nat) : Int)
        ((id / 256 % 256 : Nat) : Int) ((id % 256 : Nat) : Int) := by
      unfold getVideoFormatByID
      rw [if_neg (by rw [isV3Id_iff hid]; omega), f28, f24, f16, f8, f0]
    rw [e] at nz ⊢
    by_cases d : Documented ((id / 268435456 % 16 : Nat) : Int) ((id / 16777216 % 16 : Nat) : Int)
        ((id / 65536 % 256 : Nat) : Int) ((id / 256 % 256 : Nat) : Int) ((id % 256 : Nat) : Int)
    · obtain ⟨_, e1, e2, e3, e4, e5⟩ := (C20_query_video _ _ _ _ _).2.1 d
      rw [e1, e2, e3, e4, e5]
      have k := id_int d
      clear d e nz e1 e2 e3 e4 e5 ok
      omega
    · exact absurd ((C20_query_video _ _ _ _ _).2.2 d) nz

example : getVideoFormatByID ⟨[], 1000⟩ 0x10200000 = (true, ⟨1, 0, 32, 4, 0, 0, 1⟩) ∧
    queryVideoFormatID 1 0 32 0 0 = 0x10200000 := by decide +kernel

end VS.Format
