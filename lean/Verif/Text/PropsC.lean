import Verif.Text.Props

/-! # C91: examples and what is not true -/

namespace VS.Text
open VS VS.Format VS.Map VS.Map.Spec VS.Pix VS.Pix.Spec VS.Point VS.Point.Spec

/-- A clip with room for one character. -/
def exClip : PClip := clip1 yuv420 42 48 (fun p i => p * 50 + i % 7) Dict.empty

theorem exGeo : Geo yuv420 42 48 :=
  ⟨by decide, by decide, by decide, by decide, by decide, by decide, by decide, by decide⟩

theorem exValid : ValidClip 32 exClip := clip1_valid exGeo _ _

theorem exWork : Workable yuv420 := ⟨by decide, by decide, by decide⟩

/-- The page with one character. -/
theorem exPage : Spec.Page 42 48 1 [65] [[65]] := by
  refine ⟨[[65]], [[[65]]], .last _ ⟨by decide, by decide⟩, rfl, ?_, by decide⟩
  intro i l ps h1 h2
  rcases i with _ | i
  · simp only [List.getElem?_cons_zero, Option.some.injEq] at h1 h2
    subst h1 h2
    refine ⟨by decide, by decide, ?_, ?_, by decide⟩
    · intro i p hi _; simp at hi
    · intro p hp; rw [List.mem_singleton.1 hp]; decide
  · simp at h1

/-- The hypotheses of `C91_text`, with three lines and a carriage return. -/
example (font : Nat → Nat) : ∃ C, textCreate 32 font "Text" (textText [65, 13, 10, 66, 13, 1, 0, 67]) exClip.vi (some 5) none = .ok C ∧
    ∀ junk, ∃ g L, C.frame [exClip] 3 junk = .ok g ∧ Spec.Page 42 48 1 [65, 13, 10, 66, 13, 1] L ∧
      Spec.Drawn 32 font (mkFrame 32 yuv420 42 48 (fun p i => p * 50 + i % 7) Dict.empty) g L 5 1 :=
  C91_text (Or.inl rfl) font "Text" (textText [65, 13, 10, 66, 13, 1, 0, 67]) exValid (alignment := some 5) (scale := none)
    (by decide) (by decide) (by decide) (by decide) ⟨by decide, by decide⟩ (clip1_at _ _ _ _ _ 3) exWork (by decide) (by decide)
    (by decide)

/-- The hypotheses of `C91_refused`. -/
example (font : Nat → Nat) : ∃ C, textCreate 32 font "FrameNum" frameNumText exClip.vi none (some 2) = .ok C ∧ ∀ junk, ∃ m,
    C.frame [exClip] 0 junk = .err m ∧
      (¬ Workable yuv420 → m = "FrameNum: Input clip must be constant format 8..16 bit integer or 16-32 bit float") ∧
      (Workable yuv420 → m = "FrameNum" ++ ": frame size must be at least " ++ toString (32 + 8 * 2 : Int) ++ "x" ++
        toString (32 + 16 * 2 : Int) ++ " pixels.") :=
  C91_refused font "FrameNum" frameNumText exValid (alignment := none) (scale := some 2) (by decide) (by decide) (by decide)
    (by decide) ⟨by decide, by decide⟩ (clip1_at _ _ _ _ _ 0) (Or.inr (Or.inl (by decide)))

/-- The hypotheses of `C91_lines` and `C91_margin`: see `C91_text`; here a page. -/
example : ∃! L, Spec.Page 42 48 1 [65] L := C91_lines (by decide) (by decide) _

/-- The hypotheses of `C91_arguments`: an alignment that `int` cannot hold. -/
example (font : Nat → Nat) : textCreate 32 font "Text" (textText []) exClip.vi (some (2 ^ 32 + 7)) none =
    .err "Text: alignment must be between 1 and 9 (think numpad)" :=
  (C91_arguments font "Text" (textText []) exValid (some (2 ^ 32 + 7)) none).2.2.1 ⟨by decide, by decide⟩ (by decide)

/-- **C91, color below the text.** It is not true that no pixel of a character has any color: with subsampling, the color of
the last column of a character can remain if the text does not begin at a multiple of the subsampling. Here the
character covers columns 17 to 24 of the luma plane, but only the color of columns 16 to 23 is erased. -/
theorem C91_chroma_refuted : ¬ ∀ (c : PClip) (f g : Frm) (alignment : Option Int) (C : Created) (L : List (List Nat)),
    ValidClip 32 c → at? c 0 = some f → Workable f.fmt → f.fmt.colorFamily = cfYUV →
    textCreate 32 (fun _ => 0) "Text" (textText [65]) c.vi alignment none = .ok C → C.frame [c] 0 (fun _ _ => 0) = .ok g →
    Spec.Page f.width f.height 1 [65] L →
    ∀ ch x y u v : Nat, Spec.Cell L (alignment.getD 7).toNat f.width f.height 1 ch x y → u < 8 → v < 16 →
      smp 32 g 1 ((x + u) / 2 ^ ssw f.fmt 1) ((y + v) / 2 ^ ssh f.fmt 1) = Spec.gray f.fmt := by
  intro h
  obtain ⟨C, hC, hfr⟩ := C91_text (Or.inl rfl) (fun _ => 0) "Text" (textText [65]) exValid (alignment := some 8) (scale := none)
    (by decide) (by decide) (by decide) (by decide) ⟨by decide, by decide⟩ (clip1_at _ _ _ _ _ 0) exWork (by decide) (by decide)
    (by decide)
  obtain ⟨g, L, hg, hL, hd⟩ := hfr (fun _ _ => 0)
  have eL : L = [[65]] := (C91_lines (W := 42) (H := 48) (s := 1) (by decide) (by decide) [65]).unique hL exPage
  subst eL
  have hcell : Spec.Cell [[65]] 8 42 48 1 65 17 16 := ⟨0, 0, [65], rfl, rfl, by decide, by decide⟩
  have k1 := h exClip _ g (some 8) C [[65]] exValid (clip1_at _ _ _ _ _ 0) exWork rfl hC hg hL 65 17 16 7 0 hcell (by decide) (by decide)
  have k2 := hd.color 1 12 8 (by decide) (by decide) (by decide) (by decide) (by decide) (by
    intro c' x' y' hc'
    have hx : x' = 17 := by
      obtain ⟨i, j, line, e1, e2, e3, e4⟩ := hc'
      rcases i with _ | i
      · simp only [List.getElem?_cons_zero, Option.some.injEq] at e1
        subst e1
        rcases j with _ | j
        · rw [e3]; decide
        · simp at e2
      · simp at e1
    rw [hx]
    rintro ⟨_, h2, _⟩
    exact absurd h2 (by decide))
  have k3 : smp 32 (mkFrame 32 yuv420 42 48 (fun p i => p * 50 + i % 7) Dict.empty) 1 12 8 = 52 := by decide +kernel
  have k4 : smp 32 g 1 12 8 = 128 := k1
  rw [k3] at k2
  rw [k4] at k2
  exact absurd k2 (by decide)

end VS.Text
