import Verif.Lut.PropsLut

/-! # C71: Lut2 -/

namespace VS.Lut
open VS VS.Format VS.Map VS.Map.Spec VS.Pix VS.Pix.Spec VS.Point VS.Point.Spec VS.Lut.Spec

theorem lut2_gives {al : Nat} (hal : AlignOk al) {c d : PClip} (hv : ValidClip al c) (hd : ValidClip al d) {a : Args}
    (hs : Pair c.vi d.vi) {fo : VFmt} (ho : OutOk a c.vi.format fo) (hg : GoodVideo fo) (hr : c.vi.width * bps fo ≤ INT_MAX)
    (hbp : ∀ p : Nat, (p : Int) < fo.numPlanes → ¬ Wanted a.planes p → bps c.vi.format = bps fo)
    (h3 : ∀ p : Nat, (p : Int) < fo.numPlanes → Wanted a.planes p → (p : Int) < d.vi.format.numPlanes) (t : Nat → Nat)
    {process : List Bool} (hpr : ∀ p : Nat, p < 3 → process.getD p false = decide (Wanted a.planes p)) {n : Nat} {f g : Frm}
    (hf : at? c n = some f) (hfg : at? d n = some g) :
    Gives al (.filter (lut2Filter al c.vi d.vi fo t process)) [c, d] n fo f.width f.height f.props fun p x y =>
      if Wanted a.planes p then
        (t (index2 c.vi.format.bitsPerSample.toNat d.vi.format.bitsPerSample.toNat (smp al f p x y) (smp al g p x y)) % 256 ^ bps fo : Nat)
      else smp al f p x y := by
  obtain ⟨k1, k2, t1, t2, hb, sw, sh, w, h⟩ := hs
  obtain ⟨va, a1, a2, a3⟩ := const_frame hv k1 (at_mem hf)
  obtain ⟨vb, b1, b2, b3⟩ := const_frame hd k2 (at_mem hfg)
  have hnp : fo.numPlanes ≤ 3 := by
    have := (fmtOk (struct_of hv) k1.2.2).planes
    rw [ho.planes]; omega
  have ew : ∀ p, g.w p = f.w p := by
    intro p
    unfold Frm.w ssw
    rw [a1, b1, sw, show g.width = f.width by omega]
  have eh : ∀ p, g.h p = f.h p := by
    intro p
    unfold Frm.h ssh
    rw [a1, b1, sh, show g.height = f.height by omega]
  refine gives_of rfl a2.symm a3.symm ?_
  intro junk
  rw [← a1] at ho hbp
  obtain ⟨r, e, v, g1, g2, g3, g4, g5⟩ := lut2Frame_ok hal va vb ho (out_geo va ho hg (by rw [a2]; exact hr))
    c.vi.format.bitsPerSample.toNat d.vi.format.bitsPerSample.toNat ew eh t process (by
      intro p hp hn
      rw [hpr p (by omega)] at hn
      rw [b1]
      exact h3 p hp (of_decide_eq_true hn)) (by
      intro p hp hn
      rw [hpr p (by omega)] at hn
      exact hbp p hp (of_decide_eq_false hn)) junk
  refine ⟨r, ?_, v, g1, g2, g3, g4, ?_⟩
  · show (getFrameFilter [c, d] [(0, n), (1, n)] 0 n >>= fun s1 => getFrameFilter [c, d] [(0, n), (1, n)] 1 n >>= fun s2 =>
      lut2Frame al (bps c.vi.format) (bps d.vi.format) (bps fo) c.vi.format.bitsPerSample.toNat d.vi.format.bitsPerSample.toNat
        fo t process s1 s2 junk) = _
    rw [get_ok (i := 0) rfl hv (by simp) hf, Res.bind_ok, get_ok (i := 1) rfl hd (by simp) hfg, Res.bind_ok, ← e, a1, b1]
  · intro p x y hp hx hy
    rw [g5 p x y hp hx hy, hpr p (by omega)]
    by_cases w : Wanted a.planes p
    · rw [decide_eq_true w, if_pos rfl, if_pos w]
    · rw [decide_eq_false w, if_neg w]; rfl

/-- C71: Lut2 replaces every sample `x` of the chosen planes of the first clip by the entry number `x` + `y` · 2 ^ bits of the table,
where `y` is the sample of the second clip at the same place and `bits` is the depth of the first clip. The other planes are copied.
Values above the range the format allows are treated like the largest value. The second clip has to have the chosen planes, and
if only some planes are chosen, the new samples have to have the size of the old ones. -/
theorem C71_lut2_partial {al : Nat} (hal : AlignOk al) (F : Conv) {c d : PClip} (hv : ValidClip al c) (hd : ValidClip al d)
    {a : Args} (hs : Pair c.vi d.vi) {fo : VFmt} (ho : OutOk a c.vi.format fo) (hp : PlanesOk a.planes) {T : Nat → Nat}
    (hT : Values F a fo (2 ^ c.vi.format.bitsPerSample.toNat)
      (2 ^ c.vi.format.bitsPerSample.toNat * 2 ^ d.vi.format.bitsPerSample.toNat) T) (hr : c.vi.width * bps fo ≤ INT_MAX)
    (hbp : ∀ p : Nat, (p : Int) < fo.numPlanes → ¬ Wanted a.planes p → bps c.vi.format = bps fo)
    (h3 : ∀ p : Nat, (p : Int) < fo.numPlanes → Wanted a.planes p → (p : Int) < d.vi.format.numPlanes) (mem : Nat → Nat) :
    ∃ C, lut2Create F al c.vi d.vi a mem = .ok C ∧ outInfo C [c, d] = some { c.vi with format := fo } ∧
      ∀ n f g, at? c n = some f → at? d n = some g → Gives al C [c, d] n fo f.width f.height f.props fun p x y =>
        if Wanted a.planes p then
          T (min (smp al f p x y) (2 ^ c.vi.format.bitsPerSample.toNat - 1) +
            min (smp al g p x y) (2 ^ d.vi.format.bitsPerSample.toNat - 1) * 2 ^ c.vi.format.bitsPerSample.toNat)
        else smp al f p x y := by
  obtain ⟨k1, k2, t1, t2, hb, sw, sh, w, h⟩ := hs
  obtain ⟨fo', e1, ho', hg⟩ : ∃ fo', outFormat "Lut2" a c.vi.format = .ok fo' ∧ OutOk a c.vi.format fo' ∧ GoodVideo fo' := by
    rcases outFormat_spec "Lut2" a (good_of (struct_of hv) k1.2.2) with h | h
    · exact h
    · exact absurd ⟨fo, ho⟩ h.2
  cases out_unique ho' ho
  obtain ⟨process, e2, hpr⟩ := planes_ok "Lut2" hp
  obtain ⟨e3, t, e4, ht⟩ := table_ok F (name := "Lut2") (prefixed := true) ho hT mem
  refine ⟨.filter (lut2Filter al c.vi d.vi fo t process), ?_, rfl, ?_⟩
  · unfold lut2Create
    rw [(constant_iff _).2 k1, (constant_iff _).2 k2, if_neg (by decide), if_neg (by omega), e1, Res.bind_ok, e2, Res.bind_ok]
    dsimp only
    rw [e3, Res.bind_ok, e4, Res.bind_ok]
    exact create_ok (info_out hv ho k1 hg)
  · intro n f g hf hfg
    refine (fun (h : ∀ vx vy, t (index2 c.vi.format.bitsPerSample.toNat d.vi.format.bitsPerSample.toNat vx vy) % 256 ^ bps fo =
      T (min vx (2 ^ c.vi.format.bitsPerSample.toNat - 1) +
            min vy (2 ^ d.vi.format.bitsPerSample.toNat - 1) * 2 ^ c.vi.format.bitsPerSample.toNat)) => ?_) ?_
    · have := lut2_gives hal hv hd ⟨k1, k2, t1, t2, hb, sw, sh, w, by assumption⟩ ho hg hr hbp h3 t hpr hf hfg
      simp only [h] at this
      exact this
    · intro vx vy
      have hi := index2_lt c.vi.format.bitsPerSample.toNat d.vi.format.bitsPerSample.toNat vx vy
      rw [ht _ hi, Nat.mod_eq_of_lt (values_lt ho hT hi)]
      unfold index2
      rw [Nat.add_comm]

/-- C71: other clips and arguments are refused. -/
theorem C71_lut2_refused {al : Nat} (F : Conv) {c d : PClip} (hv : ValidClip al c) {a : Args}
    (h : ¬ (Pair c.vi d.vi ∧ PlanesOk a.planes ∧ ∃ fo, OutOk a c.vi.format fo ∧ ∃ T, Values F a fo
      (2 ^ c.vi.format.bitsPerSample.toNat) (2 ^ c.vi.format.bitsPerSample.toNat * 2 ^ d.vi.format.bitsPerSample.toNat) T))
    (mem : Nat → Nat) : ∃ m, lut2Create F al c.vi d.vi a mem = .err m := by
  unfold lut2Create
  cases e1 : isConstantVideoFormat c.vi with
  | false => exact ⟨_, rfl⟩
  | true =>
    cases e2 : isConstantVideoFormat d.vi with
    | false => exact ⟨_, rfl⟩
    | true =>
      rw [if_neg (by decide)]
      have k1 := (constant_iff _).1 e1
      have k2 := (constant_iff _).1 e2
      by_cases c1 : c.vi.format.sampleType ≠ stInteger ∨ d.vi.format.sampleType ≠ stInteger ∨
        c.vi.format.bitsPerSample + d.vi.format.bitsPerSample > 20 ∨ c.vi.format.subSamplingH ≠ d.vi.format.subSamplingH ∨
        c.vi.format.subSamplingW ≠ d.vi.format.subSamplingW ∨ c.vi.width ≠ d.vi.width ∨ c.vi.height ≠ d.vi.height
      · rw [if_pos c1]; exact ⟨_, rfl⟩
      · rw [if_neg c1]
        have hs : Pair c.vi d.vi := ⟨k1, k2, by omega, by omega, by omega, by omega, by omega, by omega, by omega⟩
        rcases outFormat_spec "Lut2" a (good_of (struct_of hv) k1.2.2) with ⟨fo, e3, ho, hg⟩ | ⟨⟨m, e⟩, _⟩
        · rw [e3, Res.bind_ok]
          by_cases hp : PlanesOk a.planes
          · obtain ⟨process, e3, _⟩ := planes_ok "Lut2" hp
            rw [e3, Res.bind_ok]
            dsimp only
            rcases table_bad F (name := "Lut2") (prefixed := true) ho (Or.inl rfl) (fun hT => h ⟨hs, hp, fo, ho, hT⟩) mem with
              ⟨m, e⟩ | ⟨e4, m, e⟩
            · rw [e]; exact ⟨m, rfl⟩
            · rw [e4, Res.bind_ok, e]; exact ⟨m, rfl⟩
          · obtain ⟨m, e⟩ := planes_bad "Lut2" hp
            rw [e]; exact ⟨m, rfl⟩
        · rw [e]; exact ⟨m, rfl⟩

/-! ## Examples -/

/-- A gray clip. -/
def grayClip : PClip := clip1 gray8 32 1 (fun _ k => 3 * k) Dict.empty

theorem gray_geo : Geo gray8 32 1 := ⟨by decide, by decide, by decide, by decide, by decide, by decide, by decide, by decide⟩

/-- The smaller of both samples, in the given planes. -/
def smaller (planes : List Int) : Args := ⟨planes, none, none, some fun x y => .int (min x y : Nat), none, none⟩

theorem smaller_ok (F : Conv) (planes : List Int) : Values F (smaller planes) yuv444 256 65536 fun i => min (i % 256) (i / 256) := by
  refine Or.inr (Or.inr (Or.inl ⟨_, rfl, rfl, rfl, fun h => h rfl, ?_⟩))
  intro i hi
  refine ⟨rfl, ?_⟩
  show min (i % 256) (i / 256) < 256
  omega

theorem pair_ok : Pair yuvClip.vi grayClip.vi :=
  ⟨⟨by decide, by decide, by decide⟩, ⟨by decide, by decide, by decide⟩, rfl, rfl, by decide, rfl, rfl, rfl, rfl⟩

example (mem : Nat → Nat) : ∃ C, lut2Create exConv 32 yuvClip.vi grayClip.vi (smaller [0]) mem = .ok C ∧
    ∃ g, C.frame [yuvClip, grayClip] 0 (fun _ _ => 7) = .ok g ∧ smp 32 g 0 3 0 = 9 := by
  obtain ⟨C, e, _, h⟩ := C71_lut2_partial (Or.inl rfl) exConv (clip1_valid yuv444_geo _ _) (clip1_valid gray_geo _ _)
    (c := yuvClip) (d := grayClip) (a := smaller [0]) pair_ok (fo := yuv444)
    (out_same yuv444_geo.fmt yuv444_geo.known rfl (by decide) rfl rfl) (by decide) (smaller_ok exConv [0]) (by decide)
    (fun _ _ _ => rfl) (by
      intro p _ hw
      have : p = 0 := by
        rcases hw with hw | hw
        · cases hw
        · have := List.mem_singleton.1 hw
          omega
      rw [this]; decide) mem
  obtain ⟨g, e1, _, g1, g2, g3, _, g4⟩ := h 0 _ _ (clip1_at ..) (clip1_at ..) (fun _ _ => 7)
  refine ⟨C, e, g, e1, ?_⟩
  have := g4 0 3 0 (by decide) (by unfold Frm.w; rw [g2]; rw [g1]; decide) (by unfold Frm.h; rw [g3]; rw [g1]; decide)
  dsimp only at this
  rw [if_pos (show Wanted (smaller [0]).planes 0 from by decide)] at this
  have e1 : smp 32 (mkFrame 32 yuv444 32 1 (fun p k => 20 * p + 5 * k) Dict.empty) 0 3 0 = 15 := by decide +kernel
  have e2 : smp 32 (mkFrame 32 gray8 32 1 (fun _ k => 3 * k) Dict.empty) 0 3 0 = 9 := by decide +kernel
  rw [e1, e2] at this
  have e' : (min ((min 15 (2 ^ yuvClip.vi.format.bitsPerSample.toNat - 1) + min 9 (2 ^ grayClip.vi.format.bitsPerSample.toNat - 1) *
    2 ^ yuvClip.vi.format.bitsPerSample.toNat) % 256) ((min 15 (2 ^ yuvClip.vi.format.bitsPerSample.toNat - 1) +
      min 9 (2 ^ grayClip.vi.format.bitsPerSample.toNat - 1) * 2 ^ yuvClip.vi.format.bitsPerSample.toNat) / 256) : Nat) = 9 := by decide
  omega

/-- The lengths of the table and of the range do not fit. -/
example (mem : Nat → Nat) : ∃ m, lut2Create exConv 32 yuvClip.vi grayClip.vi ⟨[], some [1, 2, 3], none, none, none, none⟩ mem = .err m := by
  refine C71_lut2_refused exConv (c := yuvClip) (d := grayClip) (clip1_valid yuv444_geo _ _) ?_ mem
  rintro ⟨_, _, fo, _, T, h⟩
  rcases h with ⟨l, e, _, _, _, hl, _⟩ | ⟨l, e, _⟩ | ⟨g, e, _⟩ | ⟨g, e, _⟩
  · cases e
    exact absurd hl (by decide)
  · cases e
  · cases e
  · cases e

/-- C71, refuted: the number of planes is not compared. A clip with three planes and a gray clip are accepted, and the planes the
gray clip doesn't have are read. -/
theorem C71_planes_refuted (F : Conv) (mem : Nat → Nat) :
    ValidClip 32 yuvClip ∧ ValidClip 32 grayClip ∧ ∃ C, lut2Create F 32 yuvClip.vi grayClip.vi (smaller [1]) mem = .ok C ∧
      ∀ junk, C.frame [yuvClip, grayClip] 0 junk = .ub := by
  have hv : ValidClip 32 yuvClip := clip1_valid yuv444_geo _ _
  have ho : OutOk (smaller [1]) yuv444 yuv444 := out_same yuv444_geo.fmt yuv444_geo.known rfl (by decide) rfl rfl
  obtain ⟨k1, k2, _⟩ := pair_ok
  obtain ⟨fo', e1, ho', hg⟩ : ∃ fo', outFormat "Lut2" (smaller [1]) yuv444 = .ok fo' ∧ OutOk (smaller [1]) yuv444 fo' ∧ GoodVideo fo' := by
    rcases outFormat_spec "Lut2" (smaller [1]) (good_of yuv444_geo.fmt yuv444_geo.known) with h | h
    · exact h
    · exact absurd ⟨_, ho⟩ h.2
  cases out_unique ho' ho
  obtain ⟨e3, t, e4, ht⟩ := table_ok F (name := "Lut2") (prefixed := true) ho
    (nx := 2 ^ yuvClip.vi.format.bitsPerSample.toNat)
    (n := 2 ^ yuvClip.vi.format.bitsPerSample.toNat * 2 ^ grayClip.vi.format.bitsPerSample.toNat) (smaller_ok F [1]) mem
  refine ⟨hv, clip1_valid gray_geo _ _, .filter (lut2Filter 32 yuvClip.vi grayClip.vi yuv444 t [false, true, false]), ?_, ?_⟩
  · unfold lut2Create
    rw [(constant_iff _).2 k1, (constant_iff _).2 k2, if_neg (by decide), if_neg (by decide)]
    show (outFormat "Lut2" (smaller [1]) yuv444 >>= _) = _
    rw [e1, Res.bind_ok]
    rw [show getProcessPlanesArg "Lut2" (smaller [1]).planes = .ok [false, true, false] from rfl, Res.bind_ok]
    dsimp only
    rw [e3, Res.bind_ok, e4, Res.bind_ok]
    exact create_ok (info_out hv ho k1 hg)
  · intro junk
    rfl

end VS.Lut
