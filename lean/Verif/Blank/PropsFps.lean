import Verif.Blank.Props

/-!
# C93: AssumeFPS changes the frame rate and nothing else
-/

namespace VS.Blank
open VS VS.Format VS.Map VS.Map.Spec VS.Pix VS.Pix.Spec VS.Gain VS.Half.Spec VS.Blank.Spec

/-- What the create function does with its arguments. -/
theorem assume_eq (vi : VInfo) (fpsnum fpsden : Option Int) (src : Option VInfo) :
    assumeFPSCreate vi fpsnum fpsden src =
      match rate fpsnum fpsden src with
      | none => .err "AssumeFPS: need to specify source clip or fps"
      | some (num, den) => if den < 1 ∨ num < 1 then .err "AssumeFPS: invalid framerate specified"
        else reduceRational num den >>= fun fps => create (assumeFilter { vi with fpsNum := fps.1, fpsDen := fps.2 }) := by
  unfold assumeFPSCreate rate
  cases fpsnum <;> cases src <;> simp

/-- The new frame rate is in lowest terms. -/
def lowestTerms (num den : Int) (vi : VInfo) : VInfo :=
  { vi with fpsNum := ((num : Rat) / den).num, fpsDen := (((num : Rat) / den).den : Int) }

theorem lowest_valid {vi : VInfo} (h : isValidVideoInfo vi = .ok true) {num den : Int} (hn : 0 < num) (hd : 0 < den)
    (h1 : num ≤ INT64_MAX) (h2 : den ≤ INT64_MAX) : isValidVideoInfo (lowestTerms num den vi) = .ok true := by
  rw [info_iff] at h ⊢
  obtain ⟨l1, _, l3, _⟩ := lowest hn hd
  exact ⟨h.1, le_of_lt l3, le_of_lt l1, h.2.2.2.1, h.2.2.2.2.1, h.2.2.2.2.2.1, reduce_again hn hd h1 h2, h.2.2.2.2.2.2.2⟩

/-- **C93.** With a positive frame rate, from exactly one of the arguments and the other clip, the result has this frame rate
in lowest terms, and everything else is that of the input. Every frame is the frame of the input, with the new duration. -/
theorem C93_fps {al : Nat} {c : PClip} (hv : ValidClip al c) {fpsnum fpsden : Option Int} {src : Option VInfo} {num den : Int}
    (hr : rate fpsnum fpsden src = some (num, den)) (hn : 0 < num) (hd : 0 < den) (h1 : num ≤ INT64_MAX) (h2 : den ≤ INT64_MAX) :
    ∃ C, assumeFPSCreate c.vi fpsnum fpsden src = .ok C ∧
      outInfo C [c] = some { c.vi with fpsNum := ((num : Rat) / den).num, fpsDen := (((num : Rat) / den).den : Int) } ∧
      ∀ n f, at? c n = some f → ∀ junk, ∃ g, C.frame [c] n junk = .ok g ∧
        Retimed ((num : Rat) / den).num (((num : Rat) / den).den : Int) f g := by
  rw [assume_eq, hr]
  simp only
  rw [if_neg (by omega), reduce_pos hn hd h1 h2, Res.bind_ok]
  have hval := lowest_valid hv.info hn hd h1 h2
  refine ⟨.filter (assumeFilter (lowestTerms num den c.vi)), create_ok hval, rfl, ?_⟩
  intro n f hf junk
  refine ⟨assumeFrame (lowestTerms num den c.vi).fpsNum (lowestTerms num den c.vi).fpsDen f, ?_, ?_⟩
  · refine frame_ok (f := assumeFilter (lowestTerms num den c.vi)) ?_ ?_ ?_
    · show (getFrameFilter [c] [(0, n)] 0 n >>= fun s => _) = _
      rw [get_ok (i := 0) rfl hv (List.mem_singleton.2 rfl) hf, Res.bind_ok]
    · intro h
      exact hv.fmt f (at_mem hf) h
    · intro h
      exact hv.size f (at_mem hf) h
  · refine ⟨rfl, rfl, rfl, rfl, ?_, ?_, ?_⟩
    · show ((f.props.put _ _).put _ _).get _ = _
      rw [put_get, put_get, if_neg (by decide), if_pos rfl]
      rfl
    · show ((f.props.put _ _).put _ _).get _ = _
      rw [put_get, if_pos rfl]
      rfl
    · intro k k1 k2
      show ((f.props.put _ _).put _ _).get _ = _
      rw [put_get, put_get, if_neg k2, if_neg k1]

/-- **C93.** Anything else is refused: no rate, two rates, or one that is not positive. -/
theorem C93_refused (vi : VInfo) {fpsnum fpsden : Option Int} {src : Option VInfo}
    (h : ∀ num den, rate fpsnum fpsden src = some (num, den) → num ≤ 0 ∨ den ≤ 0) :
    ∃ m, assumeFPSCreate vi fpsnum fpsden src = .err m := by
  rw [assume_eq]
  rcases e : rate fpsnum fpsden src with _ | ⟨num, den⟩
  · exact ⟨_, rfl⟩
  · have := h num den e
    simp only
    rw [if_pos (by omega)]
    exact ⟨_, rfl⟩

/-- 60000/2002 frames per second are 30000/1001. -/
example : ∃ C, assumeFPSCreate exClip.vi (some 60000) (some 2002) none = .ok C ∧
    outInfo C [exClip] = some ⟨yuv420, 30000, 1001, 8, 8, 2⟩ := by
  obtain ⟨C, h1, h2, _⟩ := C93_fps exClip_valid (fpsnum := some 60000) (fpsden := some 2002) (src := none) rfl (by decide) (by decide)
    (by decide) (by decide)
  refine ⟨C, h1, h2.trans ?_⟩
  have : ((60000 : Int) : Rat) / ((2002 : Int) : Rat) = mkRat 30000 1001 := by
    rw [Rat.mkRat_eq_div]; norm_num
  show some (VInfo.mk _ (((60000 : Int) : Rat) / ((2002 : Int) : Rat)).num ((((60000 : Int) : Rat) / ((2002 : Int) : Rat)).den : Int) _ _ _) = _
  rw [this]
  rfl

/-- The other clip has no constant frame rate. -/
example : ∀ num den, rate none none (some ⟨yuv420, 0, 0, 8, 8, 2⟩) = some (num, den) → num ≤ 0 ∨ den ≤ 0 := by
  intro num den h
  have : (0, 0) = (num, den) := by simpa [rate] using h
  rw [Prod.mk.injEq] at this
  omega

/-- **C56, C92, colors.** A color value of AddBorders and BlankClip becomes the sample next to it; values without a sample are
refused, and values that have one are not. -/
theorem C56_sample (F : DFloats) (C : ToFloat) (hC : ∀ v, single.Bits (C v)) {f : VFmt} (hv : isValidVideoStruct f = true)
    (hk : f.colorFamily ≠ cfUndefined) (v : Dbl) :
    ∃ o, pixelValue F C f v = .ok o ∧ (∀ c, o = some c → SampleFor C f v c) ∧ (HasSample C f v → o ≠ none) ∧
      (NoSample C f v → o = none) := pixel_ok F C hC (bits_range hv hk).2 v

example (C : ToFloat) : HasSample C yuv420 (.fin 235) ∧ NoSample C yuv420 (.fin (2559 / 10)) ∧ NoSample C yuv420 .nan := by
  unfold HasSample NoSample
  rw [if_pos (by rfl), if_pos (by rfl), if_pos (by rfl)]
  refine ⟨⟨235, rfl, by norm_num, ?_⟩, Or.inr ⟨_, rfl, Or.inr ⟨by decide, ?_⟩⟩, Or.inl (fun q h => by simp at h)⟩
  · show (235 : Rat) ≤ 2 ^ 8 - 1
    norm_num
  · show (2 : Rat) ^ 8 - 1 / 2 ≤ 2559 / 10
    norm_num

end VS.Blank
