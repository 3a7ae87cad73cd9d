import Verif.Pix.LemmasTurn
import Verif.Pix.LemmasStack
import Verif.Pix.LemmasField

/-! # Facts about created filters -/

namespace VS.Pix
open VS VS.Format VS.Map VS.Map.Spec VS.Pix.Spec

theorem align_pos {al : Nat} (h : AlignOk al) : 0 < al := by rcases h with rfl | rfl <;> decide
theorem align_dvd {al : Nat} (h : AlignOk al) : 4 ∣ al := by rcases h with rfl | rfl <;> decide
theorem align_le {al : Nat} (h : AlignOk al) : al ≤ 64 := by rcases h with rfl | rfl <;> decide

/-- What the check of the result guarantees. -/
theorem frame_check {f : PFilter} {clips : List PClip} {n : Nat} {junk : Junk} {g : Frm}
    (h : f.frame clips n junk = .ok g) :
    (f.vi.format.colorFamily ≠ cfUndefined → isSameVideoFormat g.fmt f.vi.format = true) ∧
    (f.vi.width ≠ 0 ∨ f.vi.height ≠ 0 → (g.width : Int) = f.vi.width ∧ (g.height : Int) = f.vi.height) := by
  unfold PFilter.frame at h
  obtain ⟨r, _, h⟩ := bind_eq_ok h
  split at h
  · exact absurd h (by simp)
  · rename_i h1
    split at h
    · exact absurd h (by simp)
    · rename_i h2
      rw [Res.ok.injEq] at h
      subst h
      constructor
      · intro hk
        unfold isSameVideoFormat
        rw [decide_eq_true_eq]
        have := Decidable.not_not.1 (fun hh => h1 ⟨hk, hh⟩)
        exact ⟨this.1.symm, this.2.1.symm, this.2.2.1.symm, this.2.2.2.1.symm, this.2.2.2.2.symm⟩
      · intro hs
        by_cases e : f.vi.width ≠ r.width ∨ f.vi.height ≠ r.height
        · exact absurd ⟨hs, e⟩ h2
        · omega

/-- The frames of a created filter make up a valid clip. -/
theorem delivers_valid {al : Nat} {f : PFilter} {clips : List PClip} {d : PClip} (hd : Delivers (.filter f) clips d)
    (hi : isValidVideoInfo f.vi = .ok true) (hr : f.vi.numFrames ≤ INT_MAX)
    (hv : ∀ n junk g, f.frame clips n junk = .ok g → Valid al g) : ValidClip al d := by
  have e : f.vi = d.vi := Option.some.inj hd.vi
  have hfr : ∀ g ∈ d.frames, ∃ n junk, f.frame clips n junk = .ok g := by
    intro g hg
    obtain ⟨n, hn, e⟩ := List.mem_iff_getElem.1 hg
    obtain ⟨junk, h⟩ := hd.frames n g (by rw [List.getElem?_eq_getElem hn, e])
    exact ⟨n, junk, h⟩
  refine ⟨e ▸ hi, hd.count, e ▸ hr, ?_, ?_, ?_⟩
  · intro g hg
    obtain ⟨n, junk, h⟩ := hfr g hg
    exact hv n junk g h
  · intro g hg hk
    obtain ⟨n, junk, h⟩ := hfr g hg
    rw [← e] at hk ⊢
    have := (frame_check h).1 hk
    have vg := hv n junk g h
    exact fmt_eq vg.fmt vg.known ((info_iff _).1 hi).1 this
  · intro g hg hs
    obtain ⟨n, junk, h⟩ := hfr g hg
    rw [← e] at hs ⊢
    exact (frame_check h).2 hs

theorem delivers_pass {al : Nat} {clips : List PClip} {c d : PClip} {i : Nat} (hc : clips[i]? = some c)
    (hv : ValidClip al c) (hd : Delivers (.pass i) clips d) : d = c := by
  have e : c.vi = d.vi := by
    have := hd.vi
    unfold outInfo at this
    simp only [hc, Option.map_some, Option.some.injEq] at this
    exact this
  have hl : d.frames.length = c.frames.length := by
    have h1 := hd.count
    have h2 := hv.count
    rw [← e] at h1
    omega
  have : d.frames = c.frames := by
    refine List.ext_getElem? (fun n => ?_)
    by_cases hn : n < d.frames.length
    · obtain ⟨junk, h⟩ := hd.frames n _ (List.getElem?_eq_getElem hn)
      have ha : at? c n = some (c.frames[n]'(by omega)) := by
        unfold at?
        rw [show min n (c.frames.length - 1) = n by omega]
        exact List.getElem?_eq_getElem _
      rw [pass_frame hc hv ha] at h
      rw [List.getElem?_eq_getElem hn, List.getElem?_eq_getElem (show n < c.frames.length by omega)]
      exact congrArg some (Res.ok.inj h).symm
    · rw [List.getElem?_eq_none (by omega), List.getElem?_eq_none (by omega)]
  cases d
  cases c
  simp_all

/-- If all frames can be made, there is a clip with them. -/
theorem exists_delivers {c : Created} {clips : List PClip} {vi : VInfo} (hv : outInfo c clips = some vi) (hn : 0 ≤ vi.numFrames)
    (h : ∀ n, ∃ g, c.frame clips n (fun _ _ => 0) = .ok g) : ∃ d, Delivers c clips d := by
  refine ⟨⟨vi, (List.range vi.numFrames.toNat).map (fun n => (h n).choose)⟩, hv, ?_, ?_⟩
  · simp only [List.length_map, List.length_range]; omega
  · intro n f hf
    simp only [List.getElem?_map, Option.map_eq_some_iff] at hf
    obtain ⟨m, hm, rfl⟩ := hf
    obtain ⟨h1, h2⟩ := List.getElem?_eq_some_iff.1 hm
    rw [List.getElem_range] at h2
    subst h2
    exact ⟨_, (h n).choose_spec⟩

/-- Frames of the delivered clip are made by the filter. -/
theorem delivers_at {al : Nat} {c : Created} {clips : List PClip} {d : PClip} (hd : Delivers c clips d) (hv : ValidClip al d)
    {n : Nat} (hn : (n : Int) < d.vi.numFrames) {f : Frm} (hf : at? d n = some f) : ∃ junk, c.frame clips n junk = .ok f := by
  unfold at? at hf
  have := hv.count
  rw [show min n (d.frames.length - 1) = n by omega] at hf
  exact hd.frames n f hf

/-- The only input of a filter like FlipVertical. -/
theorem simple_frame {al : Nat} {c : PClip} (hv : ValidClip al c) {n : Nat} {s : Frm} (hs : at? c n = some s) {vi : VInfo}
    {F : Frm → Junk → Res Frm} {junk : Junk} {g : Frm} (hg : F s junk = .ok g)
    (hf : vi.format.colorFamily ≠ cfUndefined → g.fmt = vi.format)
    (hsz : vi.width ≠ 0 ∨ vi.height ≠ 0 → (g.width : Int) = vi.width ∧ (g.height : Int) = vi.height) :
    (Created.filter (simple vi F)).frame [c] n junk = .ok g := by
  refine frame_ok ?_ hf hsz
  show (getFrameFilter [c] [(0, n)] 0 n >>= fun s => F s junk) = _
  rw [get_ok (i := 0) rfl hv (List.mem_singleton.2 rfl) hs, Res.bind_ok, hg]

theorem one_frame {al : Nat} {c : PClip} (hv : ValidClip al c) {n : Nat} {s : Frm} (hs : at? c n = some s) {vi : VInfo}
    {F : Nat → Frm → Junk → Res Frm} {junk : Junk} {g : Frm} (hg : F n s junk = .ok g)
    (hf : vi.format.colorFamily ≠ cfUndefined → g.fmt = vi.format)
    (hsz : vi.width ≠ 0 ∨ vi.height ≠ 0 → (g.width : Int) = vi.width ∧ (g.height : Int) = vi.height) :
    (Created.filter ⟨vi, fun n => [(0, n)], fun n get junk => do F n (← get 0 n) junk⟩).frame [c] n junk = .ok g := by
  refine frame_ok ?_ hf hsz
  show (getFrameFilter [c] [(0, n)] 0 n >>= fun s => F n s junk) = _
  rw [get_ok (i := 0) rfl hv (List.mem_singleton.2 rfl) hs, Res.bind_ok, hg]

/-- Same pictures. -/
theorem Same.refl (i : Img) : i.Same i := ⟨rfl, rfl, fun _ _ _ _ => rfl⟩

theorem Same.trans {a b c : Img} (h1 : a.Same b) (h2 : b.Same c) : a.Same c :=
  ⟨h1.1.trans h2.1, h1.2.1.trans h2.2.1, fun x y hx hy =>
    (h1.2.2 x y hx hy).trans (h2.2.2 x y (h1.1 ▸ hx) (h1.2.1 ▸ hy))⟩

/-- The size of a clip fits into `int` if it has a size. -/
theorem clip_size {al : Nat} {c : PClip} (hv : ValidClip al c) (hs : 0 < c.vi.width ∧ 0 < c.vi.height) :
    c.vi.width ≤ INT_MAX ∧ c.vi.height ≤ INT_MAX := by
  obtain ⟨f, _, hf⟩ := at_some hv 0
  have v := hv.frames f hf
  have := hv.size f hf (by omega)
  have hb := v.ok.pos
  have h1 := v.row
  have h2 := v.rows
  have h3 : (f.width : Int) * 1 ≤ f.width * bps f.fmt := Int.mul_le_mul_of_nonneg_left (by omega) (by omega)
  omega

end VS.Pix
