import Verif.Filter.Model
import Verif.Rational.Props

/-! Helper lemmas about filter instances with a single request per frame. -/

namespace VS

variable {F : Type}

theorem Clip.Valid.pos {c : Clip F} (h : c.Valid) : 1 ≤ c.vi.numFrames := by
  have := h.info
  unfold isValidVideoInfo at this
  split at this
  · simp at this
  · omega

theorem Clip.Valid.len_pos {c : Clip F} (h : c.Valid) : 0 < c.frames.length := by
  have := h.pos; have := h.count; omega

/-- Only the frame count changes: the info stays valid as long as there is a frame. -/
theorem valid_withNumFrames {vi : VideoInfo} (h : isValidVideoInfo vi = true) {n : Int} (hn : 1 ≤ n) :
    isValidVideoInfo { vi with numFrames := n } = true := by
  unfold isValidVideoInfo at *
  by_cases h1 : vi.fpsDen < 0 ∨ vi.fpsNum < 0 ∨ vi.height < 0 ∨ vi.width < 0 ∨ vi.numFrames < 1
  · simp [h1] at h
  · rw [if_neg h1] at h
    rw [if_neg (by simp only; omega)]
    exact h

theorem serve_one {clips : List (Clip F)} {c : Clip F} {i : Nat} {k : Int}
    (hc : clips[i]? = some c) (hv : c.Valid) (hk : 0 ≤ k) :
    ∃ fr, c.frames[(min k (c.frames.length - 1)).toNat]? = some fr ∧
      ∃ avail, serve clips [(i, k)] = .ok avail ∧ fetchFrom clips avail i k = some fr := by
  have hpos := hv.len_pos
  have hcnt := hv.count
  have hkk : clampReq c.vi.numFrames k = min k (c.frames.length - 1) := by
    unfold clampReq; split <;> omega
  have hlt : (min k ((c.frames.length : Int) - 1)).toNat < c.frames.length := by omega
  refine ⟨c.frames[(min k ((c.frames.length : Int) - 1)).toNat]'hlt, List.getElem?_eq_getElem hlt,
    [((i, clampReq c.vi.numFrames k), c.frames[(min k ((c.frames.length : Int) - 1)).toNat]'hlt)], ?_, ?_⟩
  · simp only [serve, hc]
    rw [hkk, if_neg (by omega), List.getElem?_eq_getElem hlt]
    simp
  · simp [fetchFrom, hc, List.lookup]

/-- A filter whose initial activation makes one request: the run is the second activation with that
frame available. -/
theorem run_single (f : VFilter F) {clips : List (Clip F)} {c : Clip F} {i : Nat} {n k : Int}
    {st : Int × Int} (hi : f.initial n = .ok ([(i, k)], st)) (hc : clips[i]? = some c)
    (hv : c.Valid) (hk : 0 ≤ k) :
    ∃ fr fetch, c.frames[(min k (c.frames.length - 1)).toNat]? = some fr ∧ fetch i k = some fr ∧
      f.run clips n = f.ready n st fetch := by
  obtain ⟨fr, h1, avail, h2, h3⟩ := serve_one hc hv hk
  refine ⟨fr, fetchFrom clips avail, h1, h3, ?_⟩
  simp [VFilter.run, hi, h2]

/-- As above when the requested frame exists. -/
theorem run_single_lt (f : VFilter F) {clips : List (Clip F)} {c : Clip F} {i : Nat} {n : Int} {k : Nat}
    {st : Int × Int} (hi : f.initial n = .ok ([(i, (k : Int))], st)) (hc : clips[i]? = some c)
    (hv : c.Valid) (hk : k < c.frames.length) :
    ∃ fetch, fetch i (k : Int) = some c.frames[k] ∧ f.run clips n = f.ready n st fetch := by
  obtain ⟨fr, fetch, h1, h2, h3⟩ := run_single f hi hc hv (by omega)
  have e : (min (k : Int) ((c.frames.length : Int) - 1)).toNat = k := by omega
  rw [e, List.getElem?_eq_getElem hk] at h1
  simp only [Option.some.injEq] at h1
  exact ⟨fetch, by rw [h2, h1], h3⟩

theorem createVideoFilter_ok {name : String} {f : VFilter F} (h : isValidVideoInfo f.vi = true) :
    createVideoFilter name f = .ok (.filter f) := by
  simp [createVideoFilter, h]

/-- Conclude `Outputs` for a new filter. -/
theorem outputs_filter {f : VFilter F} {clips : List (Clip F)} {out : List F}
    (hn : f.vi.numFrames = out.length)
    (hk : ∀ (k : Nat) (h : k < out.length), f.run clips k = .ok out[k]) :
    Created.Outputs (.filter f) clips out := ⟨hn, hk⟩

end VS
