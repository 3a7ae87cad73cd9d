import Verif.Blank.LemmasCreate
import Verif.Pix.Example

/-!
# C92: BlankClip makes the clip it is asked for
-/

namespace VS.Blank
open VS VS.Format VS.Map VS.Map.Spec VS.Pix VS.Pix.Spec VS.Gain VS.Half.Spec VS.Blank.Spec

theorem leByte_mod {v b k : Nat} (h : k < b) : leByte (v % 256 ^ b) k = v / 256 ^ k % 256 := by
  unfold leByte
  obtain ⟨j, rfl⟩ : ∃ j, b = k + (j + 1) := ⟨b - k - 1, by omega⟩
  rw [Nat.pow_add, Nat.mod_mul_right_div_self, Nat.mod_mod_of_dvd]
  exact Dvd.intro_left (256 ^ j) rfl

theorem blankPlane_ok {al : Nat} (h4 : 4 ∣ al) (d : Data) (ok : FmtOk d.vi.format) {dst : Frm} (hf : dst.fmt = d.vi.format)
    (ha : 0 < al) (p : Nat) (b : Buf) (hb : b.size = dst.stride al p * dst.h p) :
    ∃ b', blankPlane al d dst p b = .ok b' ∧ b'.size = b.size ∧ ∀ x y, x < dst.w p → y < dst.h p →
      ((List.range (bps d.vi.format)).map fun k => b'.byte (y * dst.stride al p + x * bps d.vi.format + k)) =
        bytesOf (bps d.vi.format) (d.color p) := by
  unfold blankPlane
  have okd : FmtOk dst.fmt := by rw [hf]; exact ok
  have hdvd : bps d.vi.format ∣ dst.stride al p := by rw [← hf]; exact bps_dvd_stride okd h4 p
  have hge := stride_ge ha dst p
  rw [hf] at hge
  have hpos := ok.pos
  have hdiv : dst.stride al p * dst.h p / bps d.vi.format * bps d.vi.format = dst.stride al p * dst.h p :=
    Nat.div_mul_cancel (Nat.dvd_trans hdvd (Nat.dvd_mul_right _ _))
  obtain ⟨b', e, hs, hin, _⟩ := memset_ok b 0 (bps d.vi.format) (d.color p % 256 ^ bps d.vi.format)
    (dst.stride al p * dst.h p / bps d.vi.format) (by rw [hdiv, hb]; omega)
  refine ⟨b', e, hs, ?_⟩
  intro x y hx hy
  unfold bytesOf
  refine range_congr (fun k hk => ?_)
  have h1 := row_lt hx hk
  have h2 := row_le (s := dst.stride al p) hy
  have := hin (y * dst.stride al p + x * bps d.vi.format + k) (by rw [hdiv]; omega)
  rw [Nat.zero_add] at this
  rw [this]
  obtain ⟨q, hq⟩ := hdvd
  have e2 : (y * dst.stride al p + x * bps d.vi.format + k) % bps d.vi.format = k := by
    rw [hq, show y * (bps d.vi.format * q) + x * bps d.vi.format + k = (y * q + x) * bps d.vi.format + k by
      rw [Nat.add_mul]; congr 2; rw [Nat.mul_assoc]; congr 1; exact Nat.mul_comm _ _]
    exact mod_eq hk
  rw [e2]
  exact leByte_mod hk

theorem put_get (d : Dict) (k : Key) (e : Option Entry) (j : Key) : (d.put k e).get j = if j = k then e else d.get j := rfl

theorem props_ok {vi : VInfo} (h0 : 0 ≤ vi.fpsNum) : OnlyDuration vi.fpsNum vi.fpsDen (blankProps vi) := by
  unfold blankProps setInt
  refine ⟨?_, ?_, ?_⟩
  · intro h
    rw [if_pos h, put_get, put_get, put_get, if_neg (by decide), if_pos rfl, if_pos rfl]
    exact ⟨rfl, rfl⟩
  · intro h
    rw [if_neg (by omega)]
    exact ⟨rfl, rfl⟩
  · intro k h1 h2
    split
    · rw [put_get, put_get, if_neg h2, if_neg h1]
      rfl
    · rfl

theorem new_ok {al : Nat} (ha : AlignOk al) (C : ToFloat) (color : List Dbl) (d : Data) {w h : Nat} (geo : Geo d.vi.format w h)
    (hw : d.vi.width = w) (hh : d.vi.height = h) (h0 : 0 ≤ d.vi.fpsNum)
    (hc : ∀ p : Nat, (p : Int) < d.vi.format.numPlanes → Fills C d.vi.format color p (d.color p)) (junk : Junk) :
    ∃ f, blankNew al d junk = .ok f ∧ BlankFrame al C d.vi color f := by
  have ok := fmtOk geo.fmt geo.known
  obtain ⟨g, e, hv, hf, gw, gh, gp, gi⟩ := make_ok (al := al) geo Dict.empty junk (fun dst => blankPlane al d dst)
    (fun p => ⟨w / 2 ^ ssw d.vi.format p, h / 2 ^ ssh d.vi.format p, fun _ _ => bytesOf (bps d.vi.format) (d.color p)⟩)
    (fun _ _ => rfl) (fun _ _ => rfl) (by
      intro dst hf _ _ p b _ hb
      exact blankPlane_ok (align_dvd ha) d ok hf (align_pos ha) p b hb)
  refine ⟨{ g with props := blankProps d.vi }, ?_, ?_⟩
  · unfold blankNew
    rw [hw, hh, ← bind_assoc, e]
    rfl
  · refine ⟨?_, hf, by rw [hw]; exact_mod_cast gw, by rw [hh]; exact_mod_cast gh, props_ok h0, ?_⟩
    · exact ⟨hv.fmt, hv.known, hv.width, hv.height, hv.modW, hv.modH, hv.row, hv.rows, hv.count, hv.size⟩
    · intro p hp
      refine ⟨d.color p, hc p hp, ?_⟩
      intro x y hx hy
      have := (gi p hp).2.2 x y hx hy
      show (img al g p).px x y = bytesOf (bps g.fmt) (d.color p)
      rw [this, hf]

/-- The result passes the check of the core. -/
theorem filter_ok {al : Nat} {C : ToFloat} {r : Reg} {a : Args} {d : Data} {kept : Option Frm} {n : Nat}
    {junk : Junk} {f : Frm} {k : Option Frm} (e : blankGet al d kept junk = .ok (f, k)) (hb : BlankFrame al C (wanted r a) a.color f) : (blankFilter al (declared r a) d kept).frame [] n junk = .ok f := by
  refine frame_ok (f := blankFilter al (declared r a) d kept) ?_ ?_ ?_
  · show (blankGet al d kept junk >>= fun r => Res.ok r.1) = _
    rw [e]
    rfl
  · intro h
    rw [hb.fmt]
    show _ = (declared r a).format
    have h' : (declared r a).format.colorFamily ≠ cfUndefined := h
    unfold declared at h' ⊢
    simp only at h' ⊢
    split
    · rfl
    · rename_i hz
      rw [if_neg hz] at h'
      exact absurd rfl h'
  · intro h
    rw [hb.width, hb.height]
    have h' : (declared r a).width ≠ 0 ∨ (declared r a).height ≠ 0 := h
    show _ = (declared r a).width ∧ _ = (declared r a).height
    unfold declared at h' ⊢
    simp only at h' ⊢
    split
    · exact ⟨rfl, rfl⟩
    · rename_i hz
      rw [if_neg hz, if_neg hz] at h'
      omega

theorem requests_ok {al : Nat} {C : ToFloat} {r : Reg} {a : Args} {d : Data}
    (hnew : ∀ junk, ∃ f, blankNew al d junk = .ok f ∧ BlankFrame al C (wanted r a) a.color f) :
    ∀ (l : List (Nat × Junk)) (kept : Option Frm), (∀ f, kept = some f → d.keep = true ∧ BlankFrame al C (wanted r a) a.color f) →
      ∃ fs, requests al ⟨declared r a, d⟩ kept l = .ok fs ∧ fs.length = l.length ∧
        (∀ f ∈ fs, BlankFrame al C (wanted r a) a.color f) ∧
        (d.keep = true → ∃ k, (∀ f, kept = some f → k = f) ∧ ∀ f ∈ fs, f = k) := by
  intro l
  induction l with
  | nil =>
    intro kept _
    refine ⟨[], rfl, rfl, fun f hf => by simp at hf, fun _ => ?_⟩
    obtain ⟨f0, _, _⟩ := hnew (fun _ _ => 0)
    refine ⟨kept.getD f0, fun f hf => by rw [hf]; rfl, fun f hf => by simp at hf⟩
  | cons q t ih =>
    intro kept hkept
    obtain ⟨n, junk⟩ := q
    have key : ∃ f k, blankGet al d kept junk = .ok (f, k) ∧ BlankFrame al C (wanted r a) a.color f ∧
        (∀ g, k = some g → d.keep = true ∧ g = f) ∧ (d.keep = true → k = some f) ∧ (∀ g, kept = some g → g = f) := by
      unfold blankGet
      cases kept with
      | some f =>
        obtain ⟨h1, h2⟩ := hkept f rfl
        simp only
        rw [if_pos h1]
        refine ⟨f, some f, rfl, h2, fun g hg => ⟨h1, (Option.some.inj hg).symm⟩, fun _ => rfl, fun g hg => (Option.some.inj hg).symm⟩
      | none =>
        obtain ⟨f, e, hb⟩ := hnew junk
        simp only
        rw [e, Res.bind_ok]
        refine ⟨f, _, rfl, hb, ?_, ?_, fun g hg => by simp at hg⟩
        · intro g hg
          split at hg
          · rename_i hkp
            exact ⟨hkp, (Option.some.inj hg).symm⟩
          · simp at hg
        · intro hkp
          rw [if_pos hkp]
    obtain ⟨f, k, e, hb, h1, h2, h3⟩ := key
    obtain ⟨fs, ef, hl, hall, hsame⟩ := ih k (fun g hg => ⟨(h1 g hg).1, by rw [(h1 g hg).2]; exact hb⟩)
    refine ⟨f :: fs, ?_, by simp [hl], ?_, ?_⟩
    · unfold requests
      simp only
      rw [filter_ok (n := n) e hb, Res.bind_ok, e, Res.bind_ok, ef, Res.bind_ok]
    · intro g hg
      rcases List.mem_cons.1 hg with rfl | hg
      · exact hb
      · exact hall g hg
    · intro hkp
      obtain ⟨k', hk1, hk2⟩ := hsame hkp
      have := hk1 f (h2 hkp)
      refine ⟨f, fun g hg => (h3 g hg).symm, ?_⟩
      intro g hg
      rcases List.mem_cons.1 hg with rfl | hg
      · rfl
      · rw [hk2 g hg, this]

theorem height_le (r : Reg) {a : Args} (ha : ArgsOk a) : (wanted r a).height ≤ INT_MAX := by
  show choice _ _ _ ≤ _
  unfold choice
  rcases e : a.height with _ | i
  · rcases e2 : a.clip with _ | vi
    · simp [INT_MAX]
    · simpa using (ha.clip vi e2).2.2.2
  · simp only [Option.map_some, Option.some_or, Option.getD_some]
    unfold toInt INT_MIN INT_MAX
    omega

/-- What a successful call tells. -/
theorem create_inv (F : DFloats) (C : ToFloat) (r : Reg) {a : Args} (ha : ArgsOk a) {b : BlankFilter}
    (h : blankClipCreate F C r a = .ok b) :
    (0 ≤ askNum a ∧ 0 ≤ askDen a) ∧ (format r a).colorFamily ≠ cfUndefined ∧ LengthOk a := by
  have hr : 0 ≤ askNum a ∧ 0 ≤ askDen a := by
    by_contra hn
    obtain ⟨m, e⟩ := fps_bad (a := a) (by omega)
    unfold blankClipCreate at h
    simp only at h
    rw [show pick a.fpsnum (a.clip.map (·.fpsNum)) 24 = askNum a from pick_eq _ _ _,
      show pick a.fpsden (a.clip.map (·.fpsDen)) 1 = askDen a from pick_eq _ _ _, e] at h
    exact absurd h (by simp)
  have hk : (format r a).colorFamily ≠ cfUndefined := by
    intro hn
    unfold blankClipCreate at h
    simp only at h
    rw [show pick a.fpsnum (a.clip.map (·.fpsNum)) 24 = askNum a from pick_eq _ _ _,
      show pick a.fpsden (a.clip.map (·.fpsDen)) 1 = askDen a from pick_eq _ _ _, fps_ok ha hr, Res.bind_ok, blankFormat_eq,
      if_pos hn] at h
    exact absurd h (by simp)
  refine ⟨hr, hk, ?_⟩
  by_contra hn
  rw [create_eq F C r ha hr hk] at h
  unfold blankFinish at h
  rw [(length_ok r hr).2 hn] at h
  exact absurd h (by simp)

/-- **C92.** A clip that BlankClip makes says about itself what was asked for, and every frame, in whatever order and however
often frames are requested, has the size, format, color and duration asked for. With `keep` all of them are the same frame. -/
theorem C92_blank {al : Nat} (hal : AlignOk al) (F : DFloats) (C : ToFloat) (hC : ∀ v, single.Bits (C v)) (r : Reg) {a : Args}
    (ha : ArgsOk a) {b : BlankFilter} (h : blankClipCreate F C r a = .ok b)
    (hrow : (wanted r a).width * bps (format r a) ≤ INT_MAX) :
    b.delivered = declared r a ∧ isValidVideoInfo b.delivered = .ok true ∧
    ∀ l : List (Nat × Junk), ∃ fs, requests al b none l = .ok fs ∧ fs.length = l.length ∧
      (∀ f ∈ fs, BlankFrame al C (wanted r a) a.color f) ∧ (a.keep.getD 0 ≠ 0 → ∀ f ∈ fs, ∀ g ∈ fs, f = g) := by
  obtain ⟨hr, hk, hl⟩ := create_inv F C r ha h
  rcases finish_cases F C hC r ha hr hk hl with ⟨m, e, _⟩ | ⟨c, e, hi, hdv, hfill⟩
  · rw [e] at h
    exact absurd h (by simp)
  rw [e, Res.ok.injEq] at h
  subst h
  refine ⟨rfl, hdv, fun l => ?_⟩
  have hpw : 0 < (wanted r a).width ∧ (2 ^ (format r a).subSamplingW.toNat : Int) ∣ (wanted r a).width := by
    by_contra hn
    exact hi (.width (by rw [not_and_or] at hn; omega))
  have hph : 0 < (wanted r a).height ∧ (2 ^ (format r a).subSamplingH.toNat : Int) ∣ (wanted r a).height := by
    by_contra hn
    exact hi (.height (by rw [not_and_or] at hn; omega))
  have hhl := height_le r ha
  have hf0 := (fps_good ha hr).1
  obtain ⟨w, ew⟩ := Int.eq_ofNat_of_zero_le (le_of_lt hpw.1)
  obtain ⟨hh, eh⟩ := Int.eq_ofNat_of_zero_le (le_of_lt hph.1)
  rw [ew] at hpw hrow
  rw [eh] at hph hhl
  have geo : Geo (format r a) w hh := ⟨format_valid r ha hk, hk, by omega, by omega, by exact_mod_cast hpw.2, by exact_mod_cast hph.2,
    hrow, hhl⟩
  obtain ⟨fs, e1, e2, e3, e4⟩ := requests_ok (al := al) (C := C) (r := r) (a := a) (d := ⟨wanted r a, c, a.keep.getD 0 != 0⟩)
    (fun junk => new_ok hal C a.color ⟨wanted r a, c, a.keep.getD 0 != 0⟩ geo ew eh hf0 hfill junk) l none (fun f hf => by simp at hf)
  refine ⟨fs, e1, e2, e3, ?_⟩
  intro hkeep f hf g hg
  obtain ⟨k, _, h2⟩ := e4 (by simpa using hkeep)
  rw [h2 f hf, h2 g hg]

/-- **C92.** Every clip that makes sense is made. -/
theorem C92_accepts (F : DFloats) (C : ToFloat) (hC : ∀ v, single.Bits (C v)) (r : Reg) {a : Args} (ha : ArgsOk a)
    (hl : LengthOk a) (hp : Possible C r a) : ∃ b, blankClipCreate F C r a = .ok b := by
  rcases finish_cases F C hC r ha hp.rate hp.known hl with ⟨m, e, hn⟩ | ⟨c, e, _⟩
  · exact absurd hp hn
  · exact ⟨_, e⟩

/-- **C92.** Anything else is refused with an error. -/
theorem C92_refused (F : DFloats) (C : ToFloat) (hC : ∀ v, single.Bits (C v)) (r : Reg) {a : Args} (ha : ArgsOk a)
    (hl : LengthOk a) (hi : Impossible C r a) : ∃ m, blankClipCreate F C r a = .err m := by
  by_cases hr : 0 ≤ askNum a ∧ 0 ≤ askDen a
  · by_cases hk : (format r a).colorFamily ≠ cfUndefined
    · rcases finish_cases F C hC r ha hr hk hl with ⟨m, e, _⟩ | ⟨c, _, hn, _⟩
      · exact ⟨m, e⟩
      · exact absurd hi hn
    · push Not at hk
      unfold blankClipCreate
      simp only
      rw [show pick a.fpsnum (a.clip.map (·.fpsNum)) 24 = askNum a from pick_eq _ _ _,
        show pick a.fpsden (a.clip.map (·.fpsDen)) 1 = askDen a from pick_eq _ _ _, fps_ok ha hr, Res.bind_ok, blankFormat_eq,
        if_pos hk]
      exact ⟨_, rfl⟩
  · obtain ⟨m, e⟩ := fps_bad (a := a) (by omega)
    unfold blankClipCreate
    simp only
    rw [show pick a.fpsnum (a.clip.map (·.fpsNum)) 24 = askNum a from pick_eq _ _ _,
      show pick a.fpsden (a.clip.map (·.fpsDen)) 1 = askDen a from pick_eq _ _ _, e]
    exact ⟨m, rfl⟩

/-! ## An example: GRAY16 with a color, 64 x 32, at 30000/1001 frames per second -/

/-- Arguments with the info of a clip. -/
def exArgs : Args :=
  { clip := some ⟨gray16, 30000, 1001, 64, 32, 7⟩, color := [.fin (1234 + 3 / 10)], length := some 5, keep := some 1 }

theorem exArgs_ok : ArgsOk exArgs := by
  refine ⟨fun i h => by simp [exArgs] at h, fun i h => by simp [exArgs] at h, fun vi h => ?_⟩
  have : vi = ⟨gray16, 30000, 1001, 64, 32, 7⟩ := by
    simpa [exArgs] using h.symm
  subst this
  decide +kernel

theorem exArgs_possible (C : ToFloat) (r : Reg) : Possible C r exArgs := by
  refine ⟨by decide, ?_, ?_, ?_, ?_, Or.inr ⟨?_, ?_⟩⟩
  · show cfGray ≠ cfUndefined
    decide
  · show (0 : Int) < 64 ∧ (2 ^ 0 : Int) ∣ 64
    decide
  · show (0 : Int) < 32 ∧ (2 ^ 0 : Int) ∣ 32
    decide
  · show (1 : Int) ≤ toInt 5
    decide
  · show ((1 : Nat) : Int) = 1
    decide
  · intro v hv
    rw [List.mem_singleton.1 hv]
    show if stInteger = stInteger then _ else _
    rw [if_pos rfl]
    refine ⟨1234 + 3 / 10, rfl, by norm_num, ?_⟩
    show _ ≤ (2 : Rat) ^ 16 - 1
    norm_num

example (F : DFloats) (C : ToFloat) (hC : ∀ v, single.Bits (C v)) (r : Reg) :
    (∃ b, blankClipCreate F C r exArgs = .ok b) ∧ (wanted r exArgs).width * bps (format r exArgs) ≤ INT_MAX ∧ AlignOk 32 ∧
      (wanted r exArgs).numFrames = 5 :=
  ⟨C92_accepts F C hC r exArgs_ok (fun h => by simp [exArgs] at h) (exArgs_possible C r), by
    show (64 : Int) * 2 ≤ INT_MAX
    decide, Or.inl rfl, rfl⟩

/-- A negative frame rate. -/
example (C : ToFloat) (r : Reg) : ArgsOk { fpsnum := some (-5) } ∧ Impossible C r { fpsnum := some (-5) } := by
  refine ⟨⟨fun i h => ?_, fun i h => by simp at h, fun vi h => by simp at h⟩, .rate (Or.inl (by decide))⟩
  have : i = -5 := by simpa using h.symm
  subst this
  decide

/-- **C92 is violated**: with a very high frame rate computing the length overflows. -/
theorem C92_overflow_refuted : ∃ a : Args, ArgsOk a ∧ ∀ (F : DFloats) (C : ToFloat) (r : Reg),
    (wanted r a).width = 640 ∧ (wanted r a).height = 480 ∧ 0 < askNum a ∧ askDen a = 1 ∧ a.color = [] ∧
      blankClipCreate F C r a = .ub := by
  have hok : ArgsOk { fpsnum := some 1000000000000000000 } := by
    refine ⟨fun i h => ?_, fun i h => by simp at h, fun vi h => by simp at h⟩
    have : i = 1000000000000000000 := by simpa using h.symm
    subst this
    decide
  refine ⟨{ fpsnum := some 1000000000000000000 }, hok, fun F C r => ⟨rfl, rfl, by decide, rfl, rfl, ?_⟩⟩
  have hr : 0 ≤ askNum { fpsnum := some 1000000000000000000 } ∧ 0 ≤ askDen { fpsnum := some 1000000000000000000 } := by decide
  rw [create_eq F C r hok hr (by show cfRGB ≠ cfUndefined; decide)]
  unfold blankFinish
  rw [(length_ok r hr).2 (by
    intro h
    have := h rfl rfl
    revert this
    decide +kernel)]
  rfl

theorem made {b : BlankFilter} (h : isValidVideoInfo b.delivered = .ok true) : blankMake b = .ok b := by
  unfold blankMake
  rw [h]
  rfl

/-- GRAY32. -/
def gray32 : VFmt := ⟨cfGray, stInteger, 32, 4, 0, 0, 1⟩

/-- **C92 is violated**: with 32 bits a value far out of range is not refused. -/
theorem C92_color_refuted : ∃ a : Args, ArgsOk a ∧ (∃ q : Rat, a.color = [.fin q] ∧ q ≥ 2 ^ 40) ∧
    ∀ (F : DFloats) (C : ToFloat) (r : Reg), format r a = gray32 ∧ ∃ b, blankClipCreate F C r a = .ok b := by
  have hok : ArgsOk { clip := some ⟨gray32, 25, 1, 64, 32, 7⟩, color := [.fin (2 ^ 40)] } := by
    refine ⟨fun i h => by simp at h, fun i h => by simp at h, fun vi h => ?_⟩
    have : vi = ⟨gray32, 25, 1, 64, 32, 7⟩ := by simpa using h.symm
    subst this
    decide +kernel
  refine ⟨_, hok, ⟨2 ^ 40, rfl, le_refl _⟩, fun F C r => ⟨rfl, ?_⟩⟩
  have hcol : blankColor F C gray32 [.fin (2 ^ 40)] = .ok (fun p => [4294967295].getD p 0) := by
    unfold blankColor
    rw [if_pos (by rfl)]
    unfold colorLoop pixelValue
    rw [if_pos (by rfl)]
    unfold doubleToIntPixelValue
    simp only
    rw [if_neg (by norm_num)]
    unfold doubleToUInt32S
    rw [if_neg (by norm_num), if_pos (by norm_num), Res.bind_ok, if_neg (by decide)]
    simp [colorLoop]
  rw [create_eq F C r hok (by decide) (by show cfGray ≠ cfUndefined; decide)]
  unfold blankFinish
  rw [(length_ok r (by decide)).1 (fun _ h => by simp at h), Res.bind_ok]
  show ∃ b, (if (64 : Int) ≤ 0 ∨ (64 : Int) % 2 ^ 0 ≠ 0 then _ else if (32 : Int) ≤ 0 ∨ (32 : Int) % 2 ^ 0 ≠ 0 then _ else
    if (7 : Int) ≤ 0 then _ else _) = _
  rw [if_neg (by decide), if_neg (by decide), if_neg (by decide)]
  show ∃ b, (blankColor F C gray32 [.fin (2 ^ 40)] >>= _) = _
  rw [hcol, Res.bind_ok]
  have hd := declared_valid r hok (by decide) (by show cfGray ≠ cfUndefined; decide) (by show (0 : Int) < 64; decide)
    (by show (0 : Int) < 32; decide) (by show (1 : Int) ≤ 7; decide)
  rw [← delivered_eq] at hd
  exact ⟨_, made hd⟩

end VS.Blank
