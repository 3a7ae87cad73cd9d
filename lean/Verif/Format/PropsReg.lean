import Verif.Format.LemmasReg
import Verif.Format.Props

/-! # Property C44: the formats of version 3 programs

A core keeps a list of formats for programs that use version 3 of the interface.  Formats are added
on demand, by name of their properties or by identifier. -/

namespace VS.Format
open VS

/-- C44: no history of requests with colour families of the interface fails or overflows. -/
theorem C44_total (calls : List Call) (hc : ∀ c ∈ calls, NamedCall c) :
    ∃ r0 r res, newReg = .ok r0 ∧ run r0 calls = .ok (r, res) ∧ Reachable r := by
  obtain ⟨r0, e0, i0⟩ := newReg_inv
  obtain ⟨r, res, e, _⟩ := run_step calls i0 hc
  exact ⟨r0, r, res, e0, e, r0, calls, res, e0, hc, e⟩

/-- C44: a format once handed out under an identifier stays the same for ever. -/
theorem C44_stable (r : Reg) (hr : Reachable r) (calls : List Call) (hc : ∀ c ∈ calls, NamedCall c)
    (r' : Reg) (res : List (Option V3Fmt)) (e : run r calls = .ok (r', res))
    (id : Int) (f : V3Fmt) (h : getV3VideoFormat r id = some f) :
    getV3VideoFormat r' id = some f := by
  obtain ⟨r2, res2, e2, _, k⟩ := run_step calls (reachable_inv hr) hc
  rw [e2] at e; cases e; exact k id f h

/-- C44: identifiers name formats one to one: the format under an identifier carries that identifier,
and two identifiers never stand for formats with the same properties. -/
theorem C44_unique (r : Reg) (hr : Reachable r) (i j : Int) (f g : V3Fmt)
    (hf : getV3VideoFormat r i = some f) (hg : getV3VideoFormat r j = some g) :
    f.id = i ∧ (Is f g.colorFamily g.sampleType g.bitsPerSample g.subSamplingW g.subSamplingH → i = j) := by
  have hi := reachable_inv hr
  refine ⟨(hi.2.2.1 _ (find_some hf)).1, fun his => ?_⟩
  have hst : SameTuple f g := his
  have pw := List.pairwise_iff_getElem.1 hi.2.1
  obtain ⟨a, ha, ea⟩ := List.getElem_of_mem (find_some hf)
  obtain ⟨b, hb, eb⟩ := List.getElem_of_mem (find_some hg)
  rcases Nat.lt_trichotomy a b with lt | eq | gt
  · exact absurd (by rw [ea, eb]; exact hst) (pw a b ha hb lt)
  · subst eq; rw [ea] at eb; cases eb; rfl
  · exact absurd (by rw [ea, eb]; exact hst.symm) (pw b a hb ha gt)

/-- C44: `registerFormat` gives a format exactly for the documented combinations.  The format has the
requested properties, fitting derived fields and can be looked up under its identifier; asking again
after any further history gives the very same format. -/
theorem C44_register (r : Reg) (hr : Reachable r) (c t b w h : Int)
    (hc : NamedFamily c ∨ c = cmCompat) :
    ∃ r' o, call r (.register c t b w h) = .ok (r', o) ∧ Reachable r' ∧
      (o = none ↔ ¬ Documented3 c t b w h) ∧
      ∀ f, o = some f → Is f c t b w h ∧ getV3VideoFormat r' f.id = some f ∧
        SmallestBytes b f.bytesPerSample ∧ f.numPlanes = (if c = cmGray then 1 else 3) ∧
        ∀ calls r2 res, (∀ x ∈ calls, NamedCall x) → run r' calls = .ok (r2, res) →
          call r2 (.register c t b w h) = .ok (r2, some f) := by
  have hi := reachable_inv hr
  obtain ⟨r', o, e, i', keep, s3, s4⟩ := query3_step hi t b w h hc
  refine ⟨r', o, e, ?_, ?_, ?_⟩
  · obtain ⟨r0, calls, res, e0, hcs, er⟩ := hr
    refine ⟨r0, calls ++ [.register c t b w h], res ++ [o], e0, ?_, ?_⟩
    · intro x hx
      rcases List.mem_append.1 hx with hx | hx
      · exact hcs x hx
      · rw [List.mem_singleton.1 hx]; exact hc
    · have : ∀ (calls : List Call) (r0 : Reg) (res : List (Option V3Fmt)), run r0 calls = .ok (r, res) →
          run r0 (calls ++ [.register c t b w h]) = .ok (r', res ++ [o]) := by
        intro calls
        induction calls with
        | nil =>
          intro r0 res er
          have er' : (r0, ([] : List (Option V3Fmt))) = (r, res) := by injection er
          obtain ⟨h1, h2⟩ := Prod.mk.inj er'
          rw [h1, ← h2]
          show run _ [_] = _
          unfold run
          rw [show call r (.register c t b w h) = .ok (r', o) from e]
          rfl
        | cons x xs ih =>
          intro r0 res er
          rw [List.cons_append]
          unfold run at er ⊢
          cases hx : call r0 x with
          | ok p =>
            rw [hx] at er
            simp only [Res.bind_ok] at er ⊢
            cases hy : run p.1 xs with
            | ok q =>
              rw [hy] at er
              simp only [Res.bind_ok] at er
              cases er
              rw [ih p.1 q.2 (by rw [hy])]
              rfl
            | err _ => rw [hy] at er; cases er
            | fatal _ => rw [hy] at er; cases er
            | ub => rw [hy] at er; cases er
          | err _ => rw [hx] at er; cases er
          | fatal _ => rw [hx] at er; cases er
          | ub => rw [hx] at er; cases er
      exact this calls r0 res er
  · constructor
    · intro ho d
      obtain ⟨f, hf, _⟩ := s3 d
      rw [ho] at hf; cases hf
    · exact fun d => (s4 d).1
  · intro f hf
    have d : Documented3 c t b w h := by
      by_cases d : Documented3 c t b w h
      · exact d
      · rw [(s4 d).1] at hf; cases hf
    obtain ⟨g, hg, look, his⟩ := s3 d
    rw [hf] at hg; cases hg
    have en := i'.2.2.1 _ (find_some look)
    have hb : f.bitsPerSample ≤ 32 := (entry_bounds en).2.2.2.2.1
    refine ⟨his, look, ?_, ?_, ?_⟩
    · have := en.2.2.1
      simp only at this
      rw [this, ← his.2.2.1]; exact bytesLoop_smallest hb
    · have := en.2.2.2.1
      simp only at this
      rw [this, his.1]
      have : ¬ c = cmCompat := by
        have := d.1; simp only [NamedFamily, cmGray, cmRGB, cmYUV, cmYCoCg, cmCompat] at *; omega
      simp [this]
    · intro calls r2 res hcs e2
      obtain ⟨r2', res', e2', i2, keep2⟩ := run_step calls i' hcs
      rw [e2'] at e2; cases e2
      obtain ⟨r3, o3, e3, i3, keep3, s33, _⟩ := query3_step i2 t b w h hc
      -- the search succeeds, so nothing is added
      have hmem := find_some (keep2 _ _ look)
      cases hs : search r2.formats c t b w h with
      | none => exact absurd his (search_none hs _ hmem)
      | some g =>
        obtain ⟨k, hk, hg⟩ := search_some hs
        have same : g = f := by
          have pw := List.pairwise_iff_getElem.1 i2.2.1
          obtain ⟨a, ha, ea⟩ := List.getElem_of_mem hk
          obtain ⟨b', hb', eb⟩ := List.getElem_of_mem hmem
          have st : SameTuple g f := by
            obtain ⟨g1, g2, g3, g4, g5⟩ := hg
            obtain ⟨f1, f2, f3, f4, f5⟩ := his
            exact ⟨by rw [g1, f1], by rw [g2, f2], by rw [g3, f3], by rw [g4, f4], by rw [g5, f5]⟩
          rcases Nat.lt_trichotomy a b' with lt | eq | gt
          · exact absurd (by rw [ea, eb]; exact st) (pw a b' ha hb' lt)
          · subst eq; rw [ea] at eb; cases eb; rfl
          · exact absurd (by rw [ea, eb]; exact st.symm) (pw b' a hb' ha gt)
        subst same
        show queryVideoFormat3 r2 c t b w h none 0 = _
        unfold queryVideoFormat3
        obtain ⟨d1, d2, d3, d4, d5⟩ := d
        simp only [stInteger, stFloat] at d2
        rw [if_neg (by omega), if_neg (by omega), if_neg (by omega),
          if_neg (by simp only [stFloat]; omega), if_neg (by omega), if_neg (by
            simp only [NamedFamily, cmGray, cmRGB, cmYUV, cmYCoCg, cmCompat] at *; omega), hs]

theorem documented_toV3 {c t b w h : Int} (d : Documented c t b w h) :
    Documented3 (colorFamilyToV3 c) t b w h ∧ colorFamilyFromV3 (colorFamilyToV3 c) = c := by
  obtain ⟨d1, d2, d3, d4, d5⟩ := d
  rcases d1 with e | e | e <;> subst e
  · exact ⟨⟨toV3_family _, d2, d3, d4, fun _ => d5 (by decide)⟩, by decide⟩
  · exact ⟨⟨toV3_family _, d2, d3, d4, fun _ => d5 (by decide)⟩, by decide⟩
  · exact ⟨⟨toV3_family _, d2, d3, d4, fun x => absurd x (by decide)⟩, by decide⟩

/-- C44: handing a good format to a version 3 program and taking it back gives the same format, also
when it is taken back by its version 3 identifier, and the program sees the same name. -/
theorem C44_round_trip (r : Reg) (hr : Reachable r) (f : VFmt) (g : GoodVideo f) :
    ∃ r' v, videoFormatToV3 r f = .ok (r', some v) ∧ videoFormatFromV3 (some v) = (true, f) ∧
      0 < v.id ∧ getVideoFormatByID r' v.id.toNat = (true, f) ∧
      getVideoFormatName f = some v.name := by
  have hi := reachable_inv hr
  have hc : f.colorFamily ≠ cfUndefined := by
    have := g.1.1; simp only [cfGray, cfRGB, cfYUV, cfUndefined] at *; omega
  obtain ⟨d, back⟩ := documented_toV3 g.1
  obtain ⟨r', o, e, i', _, s3, _⟩ := query3_step hi f.sampleType f.bitsPerSample f.subSamplingW
    f.subSamplingH (Or.inl (toV3_family f.colorFamily))
  obtain ⟨v, ho, look, his⟩ := s3 d
  subst ho
  have en := i'.2.2.1 _ (find_some look)
  have nc : v.colorFamily ≠ cmCompat := by
    rw [his.1]
    have := toV3_family f.colorFamily
    simp only [NamedFamily, cmGray, cmRGB, cmYUV, cmYCoCg, cmCompat] at *; omega
  obtain ⟨k, hk, ek⟩ := family_form (Or.inl (toV3_family f.colorFamily))
  have ob := offset_bound i'
  have hd := en.2.2.2.2
  simp only at hd
  rw [his.1, ek] at hd
  have k4 : k ≤ 4 := by
    have := toV3_family f.colorFamily
    rw [ek] at this
    simp only [NamedFamily, cmGray, cmRGB, cmYUV, cmYCoCg] at this
    omega
  have from3 : videoFormatFromV3 (some v) = (true, f) := by
    unfold videoFormatFromV3
    simp only
    rw [if_neg (by simp only [pfCompatBGR32, pfCompatYUY2, cmCompat]; omega)]
    obtain ⟨h1, h2, h3, h4, h5⟩ := his
    rw [h1, h2, h3, h4, h5, back]
    exact ((C20_struct_check f hc).2).1 g
  refine ⟨r', v, ?_, from3, by omega, ?_, ?_⟩
  · unfold videoFormatToV3; rw [if_neg hc]; exact e
  · unfold getVideoFormatByID
    rw [if_pos ((isV3Id_iff (by omega)).2 (by omega)), Int.toNat_of_nonneg (by omega)]
    unfold getV3VideoFormat
    rw [look]; exact from3
  · rcases en.2.1 with ⟨_, hn⟩ | ⟨hcc, _⟩
    · simp only at hn
      rw [hn]
      obtain ⟨h1, h2, h3, h4, h5⟩ := his
      rw [h1, h2, h3, h4, h5]
      have hv := (valid_iff hc).2 g.1
      unfold getVideoFormatName v3Name
      simp only [hv, Bool.not_true, Bool.false_eq_true, if_false]
      rcases g.1.1 with x | x | x <;> rw [x]
      · rfl
      · rfl
      · rfl
    · exact absurd hcc nc

/-- The registry of a new core, and a format it does not know yet. -/
example : ∃ r, newReg = .ok r ∧ Reachable r ∧ GoodVideo ⟨3, 0, 11, 2, 3, 1, 3⟩ := by
  obtain ⟨r, e, _⟩ := newReg_inv
  exact ⟨r, e, ⟨r, [], [], e, by simp, rfl⟩, ((C20_struct_check _ (by decide)).2).2 (by decide +kernel)⟩

/-- C44: a version 3 program that knows the identifier of a version 4 format gets that format. -/
theorem C44_preset (r : Reg) (c t b w h : Int) (d : Documented c t b w h) :
    call r (.preset (queryVideoFormatID c t b w h)) =
      call r (.toV3 (queryVideoFormat c t b w h).2) := by
  show getVideoFormat3 r _ = videoFormatToV3 r _
  obtain ⟨_, e1, e2, e3, e4, e5⟩ := (C20_query_video c t b w h).2.1 d
  unfold getVideoFormat3 videoFormatToV3
  rw [e1, e2, e3, e4, e5]
  have hc : c ≠ cfUndefined := by
    have := d.1; simp only [cfGray, cfRGB, cfYUV, cfUndefined] at *; omega
  have e := id_int d
  generalize queryVideoFormatID c t b w h = id at e ⊢
  obtain ⟨a0, a1, a2, a3, a4, a5, a6, a7, a8, a9⟩ := bounds d
  clear d e1 e2 e3 e4 e5
  rw [if_neg (by rw [isV3Id_iff (by omega)]; omega), if_neg hc, f28, f24, f16, f8, f0]
  have b1 : ((id / 268435456 % 16 : Nat) : Int) = c := by omega
  have b2 : ((id / 16777216 % 16 : Nat) : Int) = t := by omega
  have b3 : ((id / 65536 % 256 : Nat) : Int) = b := by omega
  have b4 : ((id / 256 % 256 : Nat) : Int) = w := by omega
  have b5 : ((id % 256 : Nat) : Int) = h := by omega
  rw [b1, b2, b3, b4, b5]

/-- C44 fails for colour families outside the interface, which `registerFormat` does not refuse: the
new identifier can collide with one already in use, and then a quite different format is returned.
Here a request for an 8 bit format is answered with an 11 bit RGB format. -/
theorem C44_unknown_family_refuted :
    ∃ r0 r f, newReg = .ok r0 ∧
      run r0 [.register cmRGB stInteger 11 0 0, .register 1999999 stInteger 8 0 0] =
        .ok (r, [some f, some f]) ∧ f.bitsPerSample = 11 ∧ f.colorFamily = cmRGB := by
  have h : (match newReg with
      | .ok r0 => (match run r0 [.register cmRGB stInteger 11 0 0, .register 1999999 stInteger 8 0 0] with
        | .ok (_, [some f, some g]) => decide (f.bitsPerSample = 11 ∧ f.colorFamily = cmRGB ∧ f = g)
        | _ => false)
      | _ => false) = true := by decide +kernel
  revert h
  cases newReg with
  | ok r0 =>
    intro h
    simp only at h
    split at h
    · rename_i r f g e
      obtain ⟨h1, h2, h3⟩ := of_decide_eq_true h
      subst h3
      exact ⟨r0, r, f, rfl, e, h1, h2⟩
    · cases h
  | err _ => intro h; cases h
  | fatal _ => intro h; cases h
  | ub => intro h; cases h

end VS.Format
