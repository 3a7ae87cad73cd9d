import Verif.Lut.LemmasFrame

/-! # C70: Lut -/

namespace VS.Lut
open VS VS.Format VS.Map VS.Map.Spec VS.Pix VS.Pix.Spec VS.Point VS.Point.Spec VS.Lut.Spec

theorem info_out {al : Nat} {c : PClip} (hc : ValidClip al c) {a : Args} {fo : VFmt} (ho : OutOk a c.vi.format fo)
    (hk : Constant c.vi) (hg : GoodVideo fo) : Format.isValidVideoInfo { c.vi with format := fo } = .ok true := by
  have := (info_iff _).1 hc.info
  exact (info_iff _).2 ⟨(C20_struct_check fo (by rw [ho.color]; exact hk.2.2)).1.2 hg, this.2⟩

/-- What the filter does with an arbitrary table. -/
theorem lut_gives {al : Nat} (hal : AlignOk al) {c : PClip} (hv : ValidClip al c) {a : Args} (hs : Small c.vi) {fo : VFmt}
    (ho : OutOk a c.vi.format fo) (hg : GoodVideo fo) (hr : c.vi.width * bps fo ≤ INT_MAX)
    (hbp : ∀ p : Nat, (p : Int) < fo.numPlanes → ¬ Wanted a.planes p → bps c.vi.format = bps fo) (t : Nat → Nat)
    {process : List Bool} (hpr : ∀ p : Nat, p < 3 → process.getD p false = decide (Wanted a.planes p)) {n : Nat} {f : Frm}
    (hf : at? c n = some f) :
    Gives al (.filter (lutFilter al c.vi fo t process)) [c] n fo f.width f.height f.props fun p x y =>
      if Wanted a.planes p then (t (smp al f p x y) % 256 ^ bps fo : Nat) else smp al f p x y := by
  obtain ⟨va, a1, a2, a3⟩ := const_frame hv hs.1 (at_mem hf)
  have hnp : fo.numPlanes ≤ 3 := by
    have := (fmtOk (struct_of hv) hs.1.2.2).planes
    rw [ho.planes]; omega
  refine gives_of rfl a2.symm a3.symm ?_
  intro junk
  rw [← a1] at ho hbp
  obtain ⟨g, e, v, g1, g2, g3, g4, g5⟩ := lutFrame_ok hal va ho (out_geo va ho hg (by rw [a2]; exact hr)) (by rw [a1]; exact hs.2.1)
    (by rw [a1]; exact hs.2.2) t process (by
      intro p hp hn
      rw [hpr p (by omega)] at hn
      exact hbp p hp (of_decide_eq_false hn)) junk
  refine ⟨g, ?_, v, g1, g2, g3, g4, ?_⟩
  · show (getFrameFilter [c] [(0, n)] 0 n >>= fun s1 =>
      lutFrame al (bps c.vi.format) (bps fo) fo t process s1 junk) = _
    rw [get_ok (i := 0) rfl hv (by simp) hf, Res.bind_ok, ← a1, e]
  · intro p x y hp hx hy
    rw [g5 p x y hp hx hy, hpr p (by omega)]
    by_cases w : Wanted a.planes p
    · rw [decide_eq_true w, if_pos rfl, if_pos w]
    · rw [decide_eq_false w, if_neg w]; rfl

/-- C70: Lut replaces every sample of the chosen planes by the entry of the table at its value, and copies the other planes.
Values above the range the format allows are treated like the largest value. If only some planes are chosen, the new
samples have to have the size of the old ones. -/
theorem C70_lut_partial {al : Nat} (hal : AlignOk al) (F : Conv) {c : PClip} (hv : ValidClip al c) {a : Args} (hs : Small c.vi)
    {fo : VFmt} (ho : OutOk a c.vi.format fo) (hp : PlanesOk a.planes) {T : Nat → Nat}
    (hT : Values F a fo (2 ^ c.vi.format.bitsPerSample.toNat) (2 ^ c.vi.format.bitsPerSample.toNat) T)
    (hr : c.vi.width * bps fo ≤ INT_MAX)
    (hbp : ∀ p : Nat, (p : Int) < fo.numPlanes → ¬ Wanted a.planes p → bps c.vi.format = bps fo) (mem : Nat → Nat) :
    ∃ C, lutCreate F al c.vi a mem = .ok C ∧ outInfo C [c] = some { c.vi with format := fo } ∧
      ∀ n f, at? c n = some f → Gives al C [c] n fo f.width f.height f.props fun p x y =>
        if Wanted a.planes p then T (min (smp al f p x y) (2 ^ c.vi.format.bitsPerSample.toNat - 1)) else smp al f p x y := by
  obtain ⟨fo', e1, ho', hg⟩ : ∃ fo', outFormat "Lut" a c.vi.format = .ok fo' ∧ OutOk a c.vi.format fo' ∧ GoodVideo fo' := by
    rcases outFormat_spec "Lut" a (good_of (struct_of hv) hs.1.2.2) with h | h
    · exact h
    · exact absurd ⟨fo, ho⟩ h.2
  cases out_unique ho' ho
  obtain ⟨process, e2, hpr⟩ := planes_ok "Lut" hp
  obtain ⟨e3, t, e4, ht⟩ := table_ok F (name := "Lut") (prefixed := false) ho hT mem
  refine ⟨.filter (lutFilter al c.vi fo (pad (2 ^ c.vi.format.bitsPerSample.toNat) t) process), ?_, rfl, ?_⟩
  · unfold lutCreate
    rw [(constant_iff _).2 hs.1, if_neg (by decide), if_neg (by have := hs.2; omega), e1, Res.bind_ok, e2, Res.bind_ok]
    dsimp only
    rw [e3, Res.bind_ok, e4, Res.bind_ok]
    exact create_ok (info_out hv ho hs.1 hg)
  · intro n f hf
    have hp2 := Nat.pow_pos (n := c.vi.format.bitsPerSample.toNat) (show 0 < 2 by decide)
    refine (fun (h : ∀ v, pad (2 ^ c.vi.format.bitsPerSample.toNat) t v % 256 ^ bps fo =
      T (min v (2 ^ c.vi.format.bitsPerSample.toNat - 1))) => ?_) ?_
    · have := lut_gives hal hv hs ho hg hr hbp (pad (2 ^ c.vi.format.bitsPerSample.toNat) t) hpr hf
      simp only [h] at this
      exact this
    · intro v
      have : pad (2 ^ c.vi.format.bitsPerSample.toNat) t v = t (min v (2 ^ c.vi.format.bitsPerSample.toNat - 1)) := by
        unfold pad
        split
        · rw [Nat.min_eq_left (by omega)]
        · rw [Nat.min_eq_right (by omega)]
      rw [this, ht _ (by omega), Nat.mod_eq_of_lt (values_lt ho hT (by omega))]

/-- C70: other clips and arguments are refused, if the function gives a message with its errors. -/
theorem C70_lut_refused {al : Nat} (F : Conv) {c : PClip} (hv : ValidClip al c) {a : Args} (hsp : Speaks a)
    (h : ¬ (Small c.vi ∧ PlanesOk a.planes ∧ ∃ fo, OutOk a c.vi.format fo ∧ ∃ T, Values F a fo (2 ^ c.vi.format.bitsPerSample.toNat)
      (2 ^ c.vi.format.bitsPerSample.toNat) T)) (mem : Nat → Nat) : ∃ m, lutCreate F al c.vi a mem = .err m := by
  unfold lutCreate
  cases e1 : isConstantVideoFormat c.vi with
  | false => exact ⟨_, rfl⟩
  | true =>
    rw [if_neg (by decide)]
    have hk := (constant_iff _).1 e1
    by_cases c1 : c.vi.format.sampleType ≠ stInteger ∨ c.vi.format.bitsPerSample > 16
    · rw [if_pos c1]; exact ⟨_, rfl⟩
    · rw [if_neg c1]
      have hs : Small c.vi := ⟨hk, by omega, by omega⟩
      rcases outFormat_spec "Lut" a (good_of (struct_of hv) hk.2.2) with ⟨fo, e2, ho, hg⟩ | ⟨⟨m, e⟩, _⟩
      · rw [e2, Res.bind_ok]
        by_cases hp : PlanesOk a.planes
        · obtain ⟨process, e3, _⟩ := planes_ok "Lut" hp
          rw [e3, Res.bind_ok]
          dsimp only
          rcases table_bad F (name := "Lut") (prefixed := false) ho (Or.inr hsp) (fun hT => h ⟨hs, hp, fo, ho, hT⟩) mem with
            ⟨m, e⟩ | ⟨e4, m, e⟩
          · rw [e]; exact ⟨m, rfl⟩
          · rw [e4, Res.bind_ok, e]; exact ⟨m, rfl⟩
        · obtain ⟨m, e⟩ := planes_bad "Lut" hp
          rw [e]; exact ⟨m, rfl⟩
      · rw [e]; exact ⟨m, rfl⟩

/-- The function fails for every value, without a message. -/
def silent : Args := ⟨[], none, none, some fun _ _ => .error "", none, none⟩

theorem out_same {f : VFmt} (h : isValidVideoStruct f = true) (hk : f.colorFamily ≠ cfUndefined) (ht : f.sampleType = stInteger)
    (hb : f.bitsPerSample ≤ 16) {a : Args} (h1 : a.bits = none) (h2 : a.floatout = none) : OutOk a f f := by
  obtain ⟨h8, hb'⟩ := small_bytes h hk ht hb
  have c : ¬ FloatOut a := by unfold FloatOut; rw [h2]; decide
  have hpos : 0 ≤ f.bytesPerSample := by
    have := (fmtOk h hk).bytes
    unfold bps at this; omega
  refine ⟨rfl, rfl, rfl, rfl, fun _ => ⟨ht, by rw [h1]; rfl, h8, hb, ?_⟩, fun n => absurd n c⟩
  unfold bps at hb'
  rcases hb' with ⟨h1, h2⟩ | ⟨h1, h2⟩
  · rw [if_pos h2]; omega
  · rw [if_neg (by omega)]; omega

/-- C70, refuted: an error of the function does not always refuse. If its message is empty, the samples of the result are
whatever the memory of the table contained. -/
theorem C70_silent_error_refuted {al : Nat} (hal : AlignOk al) (F : Conv) {c : PClip} (hv : ValidClip al c) (hs : Small c.vi)
    (mem : Nat → Nat) :
    ∃ C, lutCreate F al c.vi silent mem = .ok C ∧ ∀ n f, at? c n = some f → InRange al f →
      Gives al C [c] n c.vi.format f.width f.height f.props fun p x y => (mem (smp al f p x y) % 256 ^ bps c.vi.format : Nat) := by
  have ho := out_same (struct_of hv) hs.1.2.2 hs.2.1 hs.2.2 (a := silent) rfl rfl
  obtain ⟨fo', e1, ho', hg⟩ : ∃ fo', outFormat "Lut" silent c.vi.format = .ok fo' ∧ OutOk silent c.vi.format fo' ∧ GoodVideo fo' := by
    rcases outFormat_spec "Lut" silent (good_of (struct_of hv) hs.1.2.2) with h | h
    · exact h
    · exact absurd ⟨_, ho⟩ h.2
  cases out_unique ho' ho
  obtain ⟨process, e2, hpr⟩ := planes_ok "Lut" (planes := silent.planes) ⟨by simp [silent], by simp [silent]⟩
  have hp2 := Nat.pow_pos (n := c.vi.format.bitsPerSample.toNat) (show 0 < 2 by decide)
  refine ⟨.filter (lutFilter al c.vi c.vi.format (pad (2 ^ c.vi.format.bitsPerSample.toNat) mem) process), ?_, ?_⟩
  · unfold lutCreate
    rw [(constant_iff _).2 hs.1, if_neg (by decide), if_neg (by have := hs.2; omega), e1, Res.bind_ok, e2, Res.bind_ok]
    dsimp only
    rw [(check_iff "Lut" silent _).1.2 (Or.inr (Or.inr ⟨_, rfl, rfl, rfl⟩)), Res.bind_ok]
    have : makeTable F "Lut" false silent c.vi.format (2 ^ c.vi.format.bitsPerSample.toNat) (2 ^ c.vi.format.bitsPerSample.toNat) mem =
        .ok mem := by
      unfold makeTable silent
      dsimp only
      obtain ⟨k, hk⟩ : ∃ k, 2 ^ c.vi.format.bitsPerSample.toNat = k + 1 := ⟨_, (Nat.sub_add_cancel hp2).symm⟩
      rw [hk]
      rfl
    rw [this, Res.bind_ok]
    exact create_ok (info_out hv ho hs.1 hg)
  · intro n f hf hin junk
    obtain ⟨va, a1, a2, a3⟩ := const_frame hv hs.1 (at_mem hf)
    obtain ⟨g, e, v, g1, g2, g3, g4, g5⟩ := lut_gives hal hv hs ho hg (by rw [← a2, ← a1]; exact va.row)
      (fun _ _ _ => rfl) (pad (2 ^ c.vi.format.bitsPerSample.toNat) mem) hpr hf junk
    refine ⟨g, e, v, g1, g2, g3, g4, ?_⟩
    intro p x y hp hx hy
    rw [g5 p x y hp hx hy]
    dsimp only
    rw [if_pos (show Wanted silent.planes p from Or.inl rfl)]
    have := hin p x y (by rw [a1]; exact hp) (by rw [← w_eq (g1.trans a1.symm) g2]; exact hx) (by rw [← h_eq (g1.trans a1.symm) g3]; exact hy)
    rw [a1] at this
    unfold pad
    rw [if_pos this]

/-- YUV444P8. -/
def yuv444 : VFmt := ⟨cfYUV, stInteger, 8, 1, 0, 0, 3⟩

theorem yuv444_geo : Geo yuv444 32 1 := ⟨by decide, by decide, by decide, by decide, by decide, by decide, by decide, by decide⟩

/-- A clip of one frame. -/
def yuvClip : PClip := clip1 yuv444 32 1 (fun p k => 20 * p + 5 * k) Dict.empty

/-- The samples of the first plane become 16 bit numbers. -/
def firstTo16 : Args := ⟨[0], none, none, some fun x _ => .int (256 * x), some 16, none⟩

/-- YUV444P16. -/
def yuv444p16 : VFmt := ⟨cfYUV, stInteger, 16, 2, 0, 0, 3⟩

theorem first_out : OutOk firstTo16 yuv444 yuv444p16 :=
  ⟨rfl, rfl, rfl, rfl, fun _ => ⟨rfl, rfl, by decide, by decide, by decide⟩, fun h => absurd h (by decide)⟩

/-- C70, refuted: Lut accepts to change the size of the samples of only some planes. The other planes are still those of the
source, too small for the format: the frame has less memory than its format needs. -/
theorem C70_planes_refuted (F : Conv) (mem : Nat → Nat) :
    ValidClip 32 yuvClip ∧ ∃ C, lutCreate F 32 yuvClip.vi firstTo16 mem = .ok C ∧ ∀ junk, ∃ g b, C.frame [yuvClip] 0 junk = .ok g ∧
      g.fmt = yuv444p16 ∧ g.planes[1]? = some b ∧ b.size < g.h 1 * (g.w 1 * bps g.fmt) ∧ ¬ Valid 32 g := by
  have hv : ValidClip 32 yuvClip := clip1_valid yuv444_geo _ _
  have hk : Constant yuvClip.vi := ⟨by decide, by decide, by decide⟩
  obtain ⟨fo', e1, ho', hg⟩ : ∃ fo', outFormat "Lut" firstTo16 yuv444 = .ok fo' ∧ OutOk firstTo16 yuv444 fo' ∧ GoodVideo fo' := by
    rcases outFormat_spec "Lut" firstTo16 (good_of yuv444_geo.fmt yuv444_geo.known) with h | h
    · exact h
    · exact absurd ⟨_, first_out⟩ h.2
  cases out_unique ho' first_out
  obtain ⟨e3, t, e4, ht⟩ := table_ok F (name := "Lut") (prefixed := false) (nx := 256) (n := 256) (T := fun i => 256 * i) first_out (by
    refine Or.inr (Or.inr (Or.inl ⟨_, rfl, rfl, rfl, by decide, ?_⟩))
    intro i hi
    refine ⟨?_, by show 256 * i < 65536; omega⟩
    show Ret.int _ = _
    rw [Nat.mod_eq_of_lt hi]
    rfl) mem
  refine ⟨hv, .filter (lutFilter 32 yuvClip.vi yuv444p16 (pad 256 t) [true, false, false]), ?_, ?_⟩
  · unfold lutCreate
    rw [(constant_iff _).2 hk, if_neg (by decide), if_neg (by decide)]
    show (outFormat "Lut" firstTo16 yuv444 >>= _) = _
    rw [e1, Res.bind_ok]
    show (checkArgs "Lut" firstTo16 256 >>= fun _ => makeTable F "Lut" false firstTo16 yuv444p16 256 256 mem >>= fun t =>
      create (lutFilter 32 yuvClip.vi yuv444p16 (pad 256 t) [true, false, false])) = _
    rw [e3, Res.bind_ok, e4, Res.bind_ok]
    exact create_ok (info_out hv first_out hk hg)
  · intro junk
    obtain ⟨g, b, e, e1, e2, e3, e5, e6⟩ : ∃ g b, lutFrame 32 1 2 yuv444p16 (pad 256 t) [true, false, false]
        (mkFrame 32 yuv444 32 1 (fun p k => 20 * p + 5 * k) Dict.empty) junk = .ok g ∧ g.fmt = yuv444p16 ∧ g.width = 32 ∧
          g.height = 1 ∧ g.planes[1]? = some b ∧ b.size = 32 := by
      exact ⟨_, _, rfl, rfl, rfl, rfl, rfl, by decide +kernel⟩
    have e7 : g.h 1 * (g.w 1 * bps g.fmt) = 64 := by
      unfold Frm.h Frm.w
      rw [e1, e2, e3]
      decide
    refine ⟨g, b, frame_ok ?_ (fun _ => e1) (fun _ => ⟨by rw [e2]; rfl, by rw [e3]; rfl⟩), e1, e5, by omega, ?_⟩
    · show (getFrameFilter [yuvClip] [(0, 0)] 0 0 >>= fun s1 => lutFrame 32 1 2 yuv444p16 (pad 256 t) [true, false, false] s1 junk) = _
      rw [get_ok (i := 0) rfl hv (by simp) (clip1_at ..), Res.bind_ok, e]
    · intro v
      have hs := v.size 1 b e5
      have hle := stride_ge (al := 32) (by decide) g 1
      have : g.h 1 * (g.w 1 * bps g.fmt) ≤ g.stride 32 1 * g.h 1 := by
        rw [Nat.mul_comm (g.stride 32 1)]
        exact Nat.mul_le_mul_left _ hle
      omega

/-! ## Examples -/

/-- A conversion. -/
def exConv : Conv := ⟨fun _ => 0, fun _ => by decide⟩

/-- The brightness of the samples of an 8 bit clip is inverted. -/
def negative : Args := ⟨[0], none, none, some fun x _ => .int (255 - x), none, none⟩

example (mem : Nat → Nat) : ∃ C, lutCreate exConv 32 yuvClip.vi negative mem = .ok C ∧
    ∃ g, C.frame [yuvClip] 0 (fun _ _ => 7) = .ok g ∧ smp 32 g 0 3 0 = 240 := by
  have hv : ValidClip 32 yuvClip := clip1_valid yuv444_geo _ _
  have hs : Small yuvClip.vi := ⟨⟨by decide, by decide, by decide⟩, rfl, by decide⟩
  obtain ⟨C, e, _, h⟩ := C70_lut_partial (Or.inl rfl) exConv hv (a := negative) hs (fo := yuv444)
    (out_same yuv444_geo.fmt yuv444_geo.known rfl (by decide) rfl rfl) (by decide) (T := fun i => 255 - i) (by
      refine Or.inr (Or.inr (Or.inl ⟨_, rfl, rfl, rfl, by decide, ?_⟩))
      intro i hi
      have hi' : i < 256 := hi
      refine ⟨?_, by show 255 - i < 256; omega⟩
      show Ret.int (255 - ((i % 256 : Nat) : Int)) = .int ((255 - i : Nat) : Int)
      rw [Nat.mod_eq_of_lt hi', Int.ofNat_sub (by omega)]
      rfl) (by decide) (fun _ _ _ => rfl) mem
  obtain ⟨g, e1, _, g1, g2, g3, _, g4⟩ := h 0 _ (clip1_at ..) (fun _ _ => 7)
  refine ⟨C, e, g, e1, ?_⟩
  have := g4 0 3 0 (by decide) (by unfold Frm.w; rw [g2]; rw [g1]; decide) (by unfold Frm.h; rw [g3]; rw [g1]; decide)
  dsimp only at this
  rw [if_pos (show Wanted negative.planes 0 from by decide)] at this
  have e : smp 32 (mkFrame 32 yuv444 32 1 (fun p k => 20 * p + 5 * k) Dict.empty) 0 3 0 = 15 := by decide +kernel
  rw [e] at this
  have e' : (255 - min 15 (2 ^ yuvClip.vi.format.bitsPerSample.toNat - 1) : Nat) = 240 := by decide
  omega

/-- The function returns a negative number for some value. -/
example (mem : Nat → Nat) : ∃ m, lutCreate exConv 32 yuvClip.vi ⟨[], none, none, some fun x _ => .int (200 - x), none, none⟩ mem =
    .err m := by
  refine C70_lut_refused exConv (clip1_valid yuv444_geo _ _) ?_ ?_ mem
  · intro f hf x y
    cases hf
    simp
  · rintro ⟨_, _, fo, _, T, h⟩
    rcases h with ⟨l, e, _⟩ | ⟨l, _, e, _⟩ | ⟨g, _, _, e, _, hv⟩ | ⟨g, _, _, e, _, hv⟩
    · cases e
    · cases e
    · cases e
      have := (hv 255 (by decide)).1
      have : Ret.int (200 - (255 : Nat)) = Ret.int (T 255) := this
      injection this with this
      omega
    · cases e
      obtain ⟨b, e, _⟩ := hv 255 (by decide)
      cases e

end VS.Lut
