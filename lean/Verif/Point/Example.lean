import Verif.Point.LemmasClip
import Verif.Pix.Example

/-! # Clips for the examples -/

namespace VS.Point
open VS VS.Format VS.Map VS.Map.Spec VS.Pix VS.Pix.Spec VS.Point.Spec

/-- A clip with one frame. -/
def clip1 (fmt : VFmt) (w h : Nat) (px : Nat → Nat → Nat) (props : Dict) : PClip :=
  ⟨⟨fmt, 25, 1, w, h, 1⟩, [mkFrame 32 fmt w h px props]⟩

theorem clip1_valid {fmt : VFmt} {w h : Nat} (g : Geo fmt w h) (px : Nat → Nat → Nat) (props : Dict) :
    ValidClip 32 (clip1 fmt w h px props) := by
  have hw := g.width
  have hh := g.height
  refine ⟨?_, rfl, by show (1 : Int) ≤ INT_MAX; decide, ?_, ?_, ?_⟩
  · refine (info_iff _).2 ⟨g.fmt, by show (0 : Int) ≤ 1; decide, by show (0 : Int) ≤ 25; decide, ?_, ?_, by show (1 : Int) ≤ 1; decide,
      by show reduceRational 25 1 = .ok (25, 1); decide +kernel, ?_⟩
    · show (0 : Int) ≤ h; omega
    · show (0 : Int) ≤ w; omega
    · show (h : Int) ≠ 0 ↔ (w : Int) ≠ 0; omega
  · intro f hf
    rw [List.mem_singleton.1 hf]
    exact mkFrame_valid g _ _
  · intro f hf _
    rw [List.mem_singleton.1 hf]; rfl
  · intro f hf _
    rw [List.mem_singleton.1 hf]; exact ⟨rfl, rfl⟩

theorem clip1_at (fmt : VFmt) (w h : Nat) (px : Nat → Nat → Nat) (props : Dict) (n : Nat) :
    at? (clip1 fmt w h px props) n = some (mkFrame 32 fmt w h px props) := by
  unfold at? clip1
  simp

/-- RGBS. -/
def rgbs : VFmt := ⟨cfRGB, stFloat, 32, 4, 0, 0, 3⟩

/-- GRAY10. -/
def gray10 : VFmt := ⟨cfGray, stInteger, 10, 2, 0, 0, 1⟩

/-- GRAY8. -/
def gray8 : VFmt := ⟨cfGray, stInteger, 8, 1, 0, 0, 1⟩

theorem rgbs_geo : Geo rgbs 4 2 := ⟨by decide, by decide, by decide, by decide, by decide, by decide, by decide, by decide⟩

theorem gray10_geo : Geo gray10 4 2 := ⟨by decide, by decide, by decide, by decide, by decide, by decide, by decide, by decide⟩

theorem gray16_geo : Geo gray16 4 2 := ⟨by decide, by decide, by decide, by decide, by decide, by decide, by decide, by decide⟩

theorem gray8_geo : Geo gray8 4 2 := ⟨by decide, by decide, by decide, by decide, by decide, by decide, by decide, by decide⟩

end VS.Point
