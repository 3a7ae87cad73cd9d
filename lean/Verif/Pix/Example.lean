import Verif.Pix.LemmasCreate

/-! # Frames and clips for the examples -/

namespace VS.Pix
open VS VS.Format VS.Map VS.Map.Spec VS.Pix.Spec

/-- YUV420P8. -/
def yuv420 : VFmt := ⟨cfYUV, stInteger, 8, 1, 1, 1, 3⟩

/-- GRAY16. -/
def gray16 : VFmt := ⟨cfGray, stInteger, 16, 2, 0, 0, 1⟩

/-- A frame with given bytes. -/
def mkFrame (al : Nat) (fmt : VFmt) (w h : Nat) (px : Nat → Nat → Nat) (props : Dict) : Frm :=
  ⟨fmt, w, h, (List.range fmt.numPlanes.toNat).map
    (fun p => ⟨Frame.strideOf al (w / 2 ^ ssw fmt p) (bps fmt) * (h / 2 ^ ssh fmt p), px p⟩), props⟩

theorem mkFrame_valid {al : Nat} {fmt : VFmt} {w h : Nat} (g : Geo fmt w h) (px : Nat → Nat → Nat) (props : Dict) :
    Valid al (mkFrame al fmt w h px props) := by
  have hnp : fmt.numPlanes = 1 ∨ fmt.numPlanes = 3 := (fmtOk g.fmt g.known).planes
  refine Geo.valid g ?_ ?_
  · show (((List.range fmt.numPlanes.toNat).map _).length : Int) = fmt.numPlanes
    simp only [List.length_map, List.length_range]
    omega
  · intro p b hb
    have hb' : ((List.range fmt.numPlanes.toNat).map (fun p => (⟨Frame.strideOf al (w / 2 ^ ssw fmt p) (bps fmt) *
      (h / 2 ^ ssh fmt p), px p⟩ : Buf)))[p]? = some b := hb
    rw [List.getElem?_map] at hb'
    obtain ⟨q, hq, rfl⟩ := Option.map_eq_some_iff.1 hb'
    obtain ⟨hq1, hq2⟩ := List.getElem?_eq_some_iff.1 hq
    rw [List.getElem_range] at hq2
    subst hq2
    rfl

/-- A picture that changes from pixel to pixel. -/
def exPx (p i : Nat) : Nat := (i * 7 + p * 50 + i / 32) % 256

/-- A YUV420P8 clip with two frames of 8 × 8 pixels. -/
def exClip : PClip :=
  ⟨⟨yuv420, 25, 1, 8, 8, 2⟩, [mkFrame 32 yuv420 8 8 exPx Dict.empty, mkFrame 32 yuv420 8 8 (fun p i => exPx p (i + 3)) Dict.empty]⟩

theorem yuv_geo : Geo yuv420 8 8 := by
  refine ⟨by decide, by decide, by decide, by decide, by decide, by decide, by decide, by decide⟩

theorem exClip_valid : ValidClip 32 exClip := by
  refine ⟨by decide +kernel, rfl, by decide, ?_, ?_, ?_⟩
  · intro f hf
    rcases List.mem_cons.1 hf with rfl | hf
    · exact mkFrame_valid yuv_geo _ _
    · rw [List.mem_singleton.1 hf]
      exact mkFrame_valid yuv_geo _ _
  · intro f hf _
    rcases List.mem_cons.1 hf with rfl | hf
    · rfl
    · rw [List.mem_singleton.1 hf]; rfl
  · intro f hf _
    rcases List.mem_cons.1 hf with rfl | hf
    · exact ⟨rfl, rfl⟩
    · rw [List.mem_singleton.1 hf]; exact ⟨rfl, rfl⟩

/-- The first frame. -/
theorem exClip_at : at? exClip 0 = some (mkFrame 32 yuv420 8 8 exPx Dict.empty) := rfl

end VS.Pix
