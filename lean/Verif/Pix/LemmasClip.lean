import Verif.Pix.LemmasFrame

/-! # Facts about clips, requests and filters -/

namespace VS.Pix
open VS VS.Format VS.Map VS.Map.Spec VS.Pix.Spec

theorem bind_assoc {α β γ : Type} (a : Res α) (f : α → Res β) (g : β → Res γ) :
    (a >>= f) >>= g = a >>= fun x => f x >>= g := by cases a <;> rfl

/-- What `isValidVideoInfo` accepts. -/
theorem info_iff (vi : VInfo) : isValidVideoInfo vi = .ok true ↔
    isValidVideoStruct vi.format = true ∧ 0 ≤ vi.fpsDen ∧ 0 ≤ vi.fpsNum ∧ 0 ≤ vi.height ∧ 0 ≤ vi.width ∧
      1 ≤ vi.numFrames ∧ reduceRational vi.fpsNum vi.fpsDen = .ok (vi.fpsNum, vi.fpsDen) ∧ (vi.height ≠ 0 ↔ vi.width ≠ 0) := by
  unfold isValidVideoInfo
  cases isValidVideoStruct vi.format
  · simp
  · simp only [Bool.not_true, Bool.false_eq_true, if_false, true_and]
    by_cases h : vi.fpsDen < 0 ∨ vi.fpsNum < 0 ∨ vi.height < 0 ∨ vi.width < 0 ∨ vi.numFrames < 1
    · rw [if_pos h]
      constructor
      · intro e; simp at e
      · omega
    · rw [if_neg h]
      rcases e : reduceRational vi.fpsNum vi.fpsDen with r | m | m | _
      · obtain ⟨a, b⟩ := r
        simp only [Res.bind_ok]
        by_cases hr : a ≠ vi.fpsNum ∨ b ≠ vi.fpsDen
        · rw [if_pos hr]
          simp only [Res.ok.injEq, Bool.false_eq_true, false_iff, Prod.mk.injEq]
          intro hh
          omega
        · rw [if_neg hr]
          have hx : (decide (vi.height ≠ 0) ^^ decide (vi.width ≠ 0)) = true ↔ ¬ (vi.height ≠ 0 ↔ vi.width ≠ 0) := by
            by_cases h1 : vi.height = 0 <;> by_cases h2 : vi.width = 0 <;> simp [h1, h2]
          by_cases hy : (vi.height ≠ 0 ↔ vi.width ≠ 0)
          · rw [if_neg (by rw [hx]; exact fun h => h hy)]
            simp only [Res.ok.injEq, true_iff, Prod.mk.injEq]
            exact ⟨by omega, by omega, by omega, by omega, by omega, by omega, hy⟩
          · rw [if_pos (hx.2 hy)]
            simp only [Res.ok.injEq, Bool.false_eq_true, false_iff]
            exact fun h => hy h.2.2.2.2.2.2
      · simp [Res.bind_err]
      · simp [Res.bind_fatal]
      · simp [Res.bind_ub]

/-- Another size. -/
theorem info_resize {vi : VInfo} (h : isValidVideoInfo vi = .ok true) {width height : Int} (hw : 0 < width)
    (hh : 0 < height) : isValidVideoInfo { vi with width := width, height := height } = .ok true := by
  rw [info_iff] at h ⊢
  exact ⟨h.1, h.2.1, h.2.2.1, by show 0 ≤ height; omega, by show 0 ≤ width; omega, h.2.2.2.2.2.1, h.2.2.2.2.2.2.1,
    by show height ≠ 0 ↔ width ≠ 0; omega⟩

theorem create_ok {f : PFilter} (h : isValidVideoInfo f.vi = .ok true) : create f = .ok (.filter f) := by
  unfold create
  rw [h]; rfl

theorem create_eq_ok {f : PFilter} {c : Created} (h : create f = .ok c) : c = .filter f ∧ isValidVideoInfo f.vi = .ok true := by
  unfold create at h
  rcases e : isValidVideoInfo f.vi with b | m | m | _ <;> rw [e] at h
  · cases b
    · simp only [Res.bind_ok, Bool.false_eq_true, if_false] at h
      exact absurd h (by simp)
    · simp only [Res.bind_ok, if_true, Res.ok.injEq] at h
      exact ⟨h.symm, rfl⟩
  all_goals exact absurd h (by simp)

theorem bind_eq_ok {α β : Type} {a : Res α} {f : α → Res β} {r : β} (h : (a >>= f) = .ok r) :
    ∃ x, a = .ok x ∧ f x = .ok r := by
  cases a with
  | ok x => exact ⟨x, rfl, h⟩
  | err m => exact absurd h (by simp)
  | fatal m => exact absurd h (by simp)
  | ub => exact absurd h (by simp)

theorem i32_inv {x y : Int} (h : i32 x = .ok y) : y = x ∧ InI32 x := by
  unfold i32 at h
  split at h
  · rename_i hx
    rw [Res.ok.injEq] at h
    exact ⟨h.symm, hx⟩
  · exact absurd h (by simp)

/-! ## Frames of clips -/

theorem Spec.ValidClip.pos {al : Nat} {c : PClip} (h : ValidClip al c) : 0 < c.frames.length := by
  have := ((info_iff c.vi).1 h.info).2.2.2.2.2.1
  have := h.count
  omega

theorem clamp_eq {al : Nat} {c : PClip} (h : ValidClip al c) (n : Nat) :
    clampNum c.vi.numFrames n = min n (c.frames.length - 1) := by
  have := h.pos
  unfold clampNum
  rw [h.count]
  split <;> omega

theorem at_some {al : Nat} {c : PClip} (h : ValidClip al c) (n : Nat) : ∃ f, at? c n = some f ∧ f ∈ c.frames := by
  have hp := h.pos
  have hl : min n (c.frames.length - 1) < c.frames.length := by omega
  exact ⟨c.frames[min n (c.frames.length - 1)], List.getElem?_eq_getElem hl, List.getElem_mem hl⟩

theorem at_mem {c : PClip} {n : Nat} {f : Frm} (h : at? c n = some f) : f ∈ c.frames := List.mem_of_getElem? h

theorem get_ok {al : Nat} {clips : List PClip} {i : Nat} {c : PClip} (hc : clips[i]? = some c) (hv : ValidClip al c)
    {reqs : List (Nat × Nat)} {n : Nat} (hr : (i, n) ∈ reqs) {f : Frm} (hf : at? c n = some f) :
    getFrameFilter clips reqs i n = .ok f := by
  unfold getFrameFilter
  rw [hc]
  have : reqs.any (fun r => r.1 == i && clampNum c.vi.numFrames r.2 == clampNum c.vi.numFrames n) = true := by
    rw [List.any_eq_true]
    exact ⟨(i, n), hr, by simp⟩
  simp only
  rw [if_pos this, clamp_eq hv n]
  unfold at? at hf
  rw [hf]

/-- The check of the result. -/
theorem frame_ok {f : PFilter} {clips : List PClip} {n : Nat} {junk : Junk} {g : Frm}
    (h : f.ready n (getFrameFilter clips (f.reqs n)) junk = .ok g)
    (hf : f.vi.format.colorFamily ≠ cfUndefined → g.fmt = f.vi.format)
    (hs : f.vi.width ≠ 0 ∨ f.vi.height ≠ 0 → (g.width : Int) = f.vi.width ∧ (g.height : Int) = f.vi.height) :
    f.frame clips n junk = .ok g := by
  unfold PFilter.frame
  rw [h, Res.bind_ok, if_neg, if_neg]
  · rintro ⟨h1, h2⟩
    have := hs h1
    omega
  · rintro ⟨h1, h2⟩
    rw [hf h1] at h2
    simp at h2

theorem frame_err {f : PFilter} {clips : List PClip} {n : Nat} {junk : Junk} {m : String}
    (h : f.ready n (getFrameFilter clips (f.reqs n)) junk = .err m) : f.frame clips n junk = .err m := by
  unfold PFilter.frame
  rw [h, Res.bind_err]

theorem pass_frame {al : Nat} {clips : List PClip} {i : Nat} {c : PClip} (hc : clips[i]? = some c) (hv : ValidClip al c)
    {n : Nat} {f : Frm} (hf : at? c n = some f) (junk : Junk) : (Created.pass i).frame clips n junk = .ok f := by
  unfold Created.frame
  simp only
  rw [hc]
  simp only
  rw [clamp_eq hv n]
  unfold at? at hf
  rw [hf]

/-- Frames of a filter with one input. -/
theorem simple_get {al : Nat} {c : PClip} (hv : ValidClip al c) {n : Nat} {s : Frm} (hs : at? c n = some s)
    (F : Frm → Junk → Res Frm) (junk : Junk) :
    (fun n (get : Nat → Nat → Res Frm) (junk : Junk) => get 0 n >>= fun s => F s junk) n
      (getFrameFilter [c] [(0, n)]) junk = F s junk := by
  simp only
  rw [get_ok (i := 0) rfl hv (List.mem_singleton.2 rfl) hs, Res.bind_ok]

/-! ## Messages -/

theorem lastMsg_none {l : List (Bool × String)} : lastMsg l = none ↔ ∀ e ∈ l, e.1 = false := by
  induction l with
  | nil => simp [lastMsg]
  | cons a t ih =>
    obtain ⟨b, m⟩ := a
    unfold lastMsg
    rcases e : lastMsg t with _ | x
    · have := ih.1 e
      cases b
      · simp only [Bool.false_eq_true, if_false, List.mem_cons, true_iff]
        intro x hx
        rcases hx with rfl | hx
        · rfl
        · exact this x hx
      · simp
    · simp only [List.mem_cons, reduceCtorEq, false_iff]
      intro hh
      rw [ih.2 (fun x hx => hh x (Or.inr hx))] at e
      simp at e

/-! ## Subsampling -/

theorem dvd_ssw {f : VFmt} {x : Nat} (h : 2 ^ f.subSamplingW.toNat ∣ x) (p : Nat) : 2 ^ ssw f p ∣ x := by
  unfold ssw
  split
  · simp
  · exact h

theorem dvd_ssh {f : VFmt} {x : Nat} (h : 2 ^ f.subSamplingH.toNat ∣ x) (p : Nat) : 2 ^ ssh f p ∣ x := by
  unfold ssh
  split
  · simp
  · exact h

theorem mod_dvd {x n : Nat} : (x : Int) % 2 ^ n = 0 ↔ 2 ^ n ∣ x := by
  rw [← Int.natCast_dvd_natCast, Int.dvd_iff_emod_eq_zero]
  simp

theorem add_div {a b s : Nat} (h : 2 ^ s ∣ a) : (a + b) / 2 ^ s = a / 2 ^ s + b / 2 ^ s := by
  obtain ⟨k, rfl⟩ := h
  rw [Nat.mul_add_div (Nat.two_pow_pos s), Nat.mul_div_cancel_left _ (Nat.two_pow_pos s)]

theorem div_le {a b s : Nat} (h : a ≤ b) : a / 2 ^ s ≤ b / 2 ^ s := Nat.div_le_div_right h

end VS.Pix
