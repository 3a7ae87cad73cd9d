import Verif.FProps.ModelClip
import Verif.FProps.PropsCopy

/-!
# C64: a clip stored in the properties of another one comes back
-/

namespace VS.FProps
open VS VS.Map VS.Map.Spec VS.FProps.Spec VS.Format

/-- The dictionary with a video frame in it. -/
def withFrame (d : Dict) (k : Key) (p : Nat) : Dict := d.put k (some (.videoFrame, [.obj (some p)]))

/-- C64: `ClipToProp` gives each frame a reference to the frame of the other clip and changes nothing else. -/
theorem C64_clipToProp (ops : List Op) (w : World) (s : State) (src p : Nat) (d : Dict) (last : Bool) (k : Key)
    (h : Leads ops w s) (hd : s[src]? = some (some d)) (hk : KeyOk k = true) :
    Gives ops s (clipToProp k last w src p) (after s src last (withFrame d k p)) := by
  have hlt := (List.getElem?_eq_some_iff.mp hd).1
  obtain ⟨w1, h1, e1⟩ := copyFrame_ext (Ext.refl h) hd
  obtain ⟨w2, h2, e2⟩ := e1.step (op := .setFrame s.length k (some (p, true)) 0) (s' := s ++ [some (withFrame d k p)])
    (o := .code 0) (by
      simp only [Spec.step, setter]
      rw [if_neg (by omega), hk]
      simp [look_of (get_last s _), setVal, hk, refArg, upd_last, withFrame])
  obtain ⟨w3, h3, e3⟩ := freeFrame_ext last e2 (get_other hd)
  have hs : (if last then (s ++ [some (withFrame d k p)]).set src none else s ++ [some (withFrame d k p)]) =
      after s src last (withFrame d k p) := by
    unfold after
    cases last with
    | false => rfl
    | true => simp only [if_true]; rw [List.set_append_left _ _ hlt]
  rw [hs] at e3
  refine e3.gives ?_
  simp only [clipToProp, h1, retCode_inv h2, h3, Res.bind_ok]

/-- What `PropToClip` finds: the property holds frames, and there is one with this index. -/
def Holds (d : Dict) (k : Key) (i : Int) (p : Nat) : Prop :=
  d.err = false ∧ ∃ t l, (t = .videoFrame ∨ t = .audioFrame) ∧ d.get k = some (t, l) ∧ 0 ≤ i ∧ l[i.toNat]? = some (.obj (some p))

theorem getFrame_ext {ops : List Op} {w : World} {s : State} {src p : Nat} {d : Dict} {k : Key} {i : Int} (h : Leads ops w s)
    (hd : s[src]? = some (some d)) (hp : Holds d k i p) : mapGetFrame w src k i true = .ok (some p, 0) := by
  obtain ⟨he, t, l, ht, hg, hi, hv⟩ := hp
  obtain ⟨w1, h1, -⟩ := (Ext.refl h).step (op := .getFrame src k i true) (s' := s) (o := .obj (some p) 0) (by
    have hii : ((i.toNat : Nat) : Int) = i := by omega
    simp only [Spec.step, reading, look_of hd, readRef]
    rw [← hii]
    rcases ht with rfl | rfl
    · simp only [readAt_ok he hg hv, refOut, Res.bind_ok]
    · simp only [readAt_other he hg hv (show PType.audioFrame ≠ .videoFrame by decide), readAt_ok he hg hv, refOut,
        Res.bind_ok])
  obtain ⟨-, a, ha, ho⟩ := retRead_inv h1
  obtain ⟨a1, a2⟩ := a
  injection ho with ho1 ho2
  simp only at ho1 ho2
  subst ho1 ho2
  exact ha

/-- C64: `PropToClip` returns the very frame that is stored if it has the promised format and size, -/
theorem C64_propToClip (ops : List Op) (w : World) (s : State) (src p : Nat) (d : Dict) (last : Bool) (video : Video)
    (pc : PropToClip) (width height : Int) (fmt : VFmt) (h : Leads ops w s) (hd : s[src]? = some (some d))
    (hp : Holds d pc.prop pc.index p) (hv : video p = some (fmt, width, height)) :
    (Pix.isSameVideoFormat pc.vi.format fmt = true ∧ pc.vi.width = width ∧ pc.vi.height = height →
      ∃ w', propToClip video pc last w src = .ok (w', p) ∧ Ext ops w' (if last then s.set src none else s)) ∧
    (¬ (Pix.isSameVideoFormat pc.vi.format fmt = true ∧ pc.vi.width = width ∧ pc.vi.height = height) →
      propToClip video pc last w src = .err "PropToClip: retrieved frame doesn't match output format or dimensions") := by
  obtain ⟨w2, h2, e2⟩ := freeFrame_ext last (Ext.refl h) hd
  simp only [propToClip, getFrame_ext h hd hp, Res.bind_ok, h2, hv]
  refine ⟨fun hc => ⟨w2, ?_, e2⟩, fun hc => ?_⟩
  · rw [if_neg]; rintro (h | h | h)
    · exact h hc.1
    · exact h hc.2.2
    · exact h hc.2.1
  · rw [if_pos]
    by_cases h1 : Pix.isSameVideoFormat pc.vi.format fmt = true
    · by_cases h2 : pc.vi.height = height
      · exact .inr (.inr fun h3 => hc ⟨h1, h3, h2⟩)
      · exact .inr (.inl h2)
    · exact .inl h1

/-- C64: and fails if there is no such frame. -/
theorem C64_propToClip_missing (ops : List Op) (w : World) (s : State) (src : Nat) (d : Dict) (last : Bool) (video : Video)
    (pc : PropToClip) (h : Leads ops w s) (hd : s[src]? = some (some d))
    (hp : d.err = true ∨ d.get pc.prop = none ∨ ∃ t l, d.get pc.prop = some (t, l) ∧
      (pc.index < 0 ∨ l.length ≤ pc.index ∨ (t ≠ .videoFrame ∧ t ≠ .audioFrame))) :
    propToClip video pc last w src = .err "PropToClip: failed to extract frame from specified property" := by
  have hr : ∃ c, readAt d pc.prop pc.index .videoFrame = .inl c ∧ ∃ c', readAt d pc.prop pc.index .audioFrame = .inl c' := by
    unfold readAt
    by_cases he : d.err = true
    · simp [he]
    · rcases hp with hp | hp | ⟨t, l, hg, hp⟩
      · exact absurd hp he
      · simp [he, hp]
      · simp only [he, hg]
        by_cases hi : pc.index < 0
        · simp [hi]
        · rcases hp with hp | hp | hp
          · exact absurd hp hi
          · have : l[pc.index.toNat]? = none := List.getElem?_eq_none (by omega)
            simp [hi, this]
          · simp only [hi]
            cases l[pc.index.toNat]? with
            | none => simp
            | some v => simp [hp.1, hp.2]
  obtain ⟨c, h1, c', h2⟩ := hr
  obtain ⟨w1, h3, -⟩ := (Ext.refl h).step (op := .getFrame src pc.prop pc.index true) (s' := s) (o := .obj none c') (by
    simp [Spec.step, reading, look_of hd, readRef, h1, h2, failWith])
  obtain ⟨-, a, ha, ho⟩ := retRead_inv h3
  obtain ⟨a1, a2⟩ := a
  injection ho with ho1 ho2
  simp only at ho1 ho2
  subst ho1 ho2
  obtain ⟨w2, h4, -⟩ := freeFrame_ext last (Ext.refl h) hd
  simp only [propToClip, ha, Res.bind_ok, h4]

/-- C64: `PropToClip` takes its format and size from the first frame. -/
theorem C64_propToClip_accepts (ops : List Op) (w : World) (s : State) (src p : Nat) (d : Dict) (last : Bool) (video : Video)
    (vi : VInfo) (k : Key) (index : Option Int) (fmt : VFmt) (width height : Int) (h : Leads ops w s)
    (hd : s[src]? = some (some d)) (hc : Pix.isConstantVideoFormat vi = true) (hk : KeyOk k = true)
    (hp : Holds d k (int64ToIntS (index.getD 0)) p) (hv : video p = some (fmt, width, height)) :
    ∃ w', propToClipCreate video vi (some k) index last w (.ok src) =
        .ok (w', ⟨{ vi with format := fmt, width := width, height := height }, k, int64ToIntS (index.getD 0)⟩) ∧
      Ext ops w' (if last then s.set src none else s) := by
  obtain ⟨w2, h2, e2⟩ := freeFrame_ext last (Ext.refl h) hd
  refine ⟨w2, ?_, e2⟩
  have hne : k ≠ "" := by intro e; rw [e] at hk; exact absurd hk (by decide)
  have hi := hp.2
  obtain ⟨t, l, -, -, hi, -⟩ := hi
  unfold propToClipCreate
  rw [if_neg (by simp [hc])]
  simp only [cstr_ok hk, if_neg hne]
  rw [if_neg (by omega)]
  simp only [getFrame_ext h hd hp, Res.bind_ok, hv, h2]
  simp

/-- C64: the round trip: whatever the first clip and its properties are, the frames of the second clip come back, and
there are as many of them. -/
theorem C64_round_trip (ops : List Op) (w : World) (s : State) (src p : Nat) (d : Dict) (last last' : Bool) (k : Key)
    (video : Video) (vi vi2 : VInfo) (h : Leads ops w s) (hd : s[src]? = some (some d)) (he : d.err = false)
    (hk : KeyOk k = true) (hc : Pix.isConstantVideoFormat vi = true) (hc2 : Pix.isConstantVideoFormat vi2 = true)
    (hv : video p = some (vi2.format, vi2.width, vi2.height)) :
    ∃ vi' w1, clipToPropCreate vi vi2 (some k) = .ok (vi', k) ∧ vi'.numFrames = vi2.numFrames ∧
      Pix.isConstantVideoFormat vi' = true ∧ clipToProp k last w src p = .ok (w1, s.length) ∧
      (∃ w2 pc, propToClipCreate video vi' (some k) none last' w1 (.ok s.length) = .ok (w2, pc) ∧
        pc.vi = { vi with format := vi2.format, width := vi2.width, height := vi2.height, numFrames := vi2.numFrames }) ∧
      ∀ w2 pc w0, propToClipCreate video vi' (some k) none last' w0 (.ok s.length) = .ok (w2, pc) →
        pc.vi.format = vi2.format → pc.vi.width = vi2.width → pc.vi.height = vi2.height →
        ∃ w3, propToClip video pc last' w1 s.length = .ok (w3, p) := by
  obtain ⟨w1, more, h1, l1⟩ := C64_clipToProp ops w s src p d last k h hd hk
  have hhold : Holds (withFrame d k p) k 0 p :=
    ⟨he, .videoFrame, [.obj (some p)], .inl rfl, by simp [withFrame, put_same], by omega, rfl⟩
  have hvi : Pix.isConstantVideoFormat { vi with numFrames := vi2.numFrames } = true := hc
  obtain ⟨w2, h2, -⟩ := C64_propToClip_accepts _ w1 _ s.length p _ last' video { vi with numFrames := vi2.numFrames } k none
    _ _ _ l1 (after_get _ _ _ _) hvi hk hhold hv
  refine ⟨{ vi with numFrames := vi2.numFrames }, w1, ?_, rfl, hvi, h1, ⟨w2, _, h2, rfl⟩, ?_⟩
  · simp [clipToPropCreate, hc, hc2, cstr_ok hk]
  · intro w2 pc w0 hcr hf hw hh
    have hpk : pc.prop = k ∧ pc.index = 0 := by
      have hne : k ≠ "" := by intro e; rw [e] at hk; exact absurd hk (by decide)
      unfold propToClipCreate at hcr
      rw [if_neg (by simp [hvi])] at hcr
      simp only [cstr_ok hk, if_neg hne] at hcr
      split at hcr
      · cases hcr
      · obtain ⟨r, hr, hcr⟩ := bind_ok_inv hcr
        split at hcr
        · cases hcr
        · split at hcr
          · cases hcr
          · split at hcr
            · cases hcr
            · obtain ⟨w', hw', hcr⟩ := bind_ok_inv hcr
              injection hcr with hcr
              injection hcr with hcr1 hcr
              subst hcr
              exact ⟨rfl, rfl⟩
    have hsame : Pix.isSameVideoFormat pc.vi.format vi2.format = true := by rw [hf]; simp [Pix.isSameVideoFormat]
    obtain ⟨w3, h3, -⟩ := (C64_propToClip _ w1 _ s.length p _ last' video pc _ _ _ l1 (after_get _ _ _ _)
      (by rw [hpk.1, hpk.2]; exact hhold) hv).1 ⟨hsame, hw, hh⟩
    exact ⟨w3, h3⟩

example : ∃ w s d, Leads [.create, .setInt 0 "_Field" 1 0] w s ∧ s[0]? = some (some d) ∧ d.err = false ∧
    KeyOk "_Alpha" = true := ⟨_, _, _, ⟨_, rfl, rfl⟩, rfl, rfl, by decide⟩

/-- C64: an audio frame in the property is taken for a video frame. -/
theorem C64_audio_refuted : ¬ ∀ (ops : List Op) (w : World) (s : State) (video : Video) (pc : PropToClip), Leads ops w s →
    s.length = 1 → propToClip video pc false w 0 ≠ .ub := by
  intro h
  refine h [.create, .setFrame 0 "a" (some (5, false)) 0] _ _ (fun _ => none) ⟨⟨⟨0, 0, 0, 0, 0, 0, 0⟩, 0, 0, 0, 0, 0⟩, "a", 0⟩
    ⟨_, rfl, rfl⟩ rfl ?_
  rfl

/-- C64: clips whose format or size varies are refused by ClipToProp. -/
theorem C64_clipToProp_refused (vi vi2 : VInfo) (prop : Option String)
    (h : vi.width ≤ 0 ∨ vi.height ≤ 0 ∨ vi.format.colorFamily = cfUndefined ∨ vi2.width ≤ 0 ∨ vi2.height ≤ 0 ∨
      vi2.format.colorFamily = cfUndefined) : ∃ m, clipToPropCreate vi vi2 prop = .err m := by
  unfold clipToPropCreate
  rw [if_pos]
  · exact ⟨_, rfl⟩
  · unfold Pix.isConstantVideoFormat
    simp only [decide_eq_true_iff]
    omega

/-- C64: so does PropToClip, which also refuses an empty name and a negative index. -/
theorem C64_propToClip_refused (video : Video) (vi : VInfo) (prop : Option String) (index : Option Int) (last : Bool) (w : World)
    (first : Res Nat) (h : vi.width ≤ 0 ∨ vi.height ≤ 0 ∨ vi.format.colorFamily = cfUndefined ∨ prop = some "" ∨
      ∃ i, index = some i ∧ i < 0) : ∃ m, propToClipCreate video vi prop index last w first = .err m := by
  have neg : (∃ i, index = some i ∧ i < 0) → int64ToIntS (index.getD 0) < 0 := by
    rintro ⟨i, rfl, h⟩
    show int64ToIntS i < 0
    unfold int64ToIntS INT_MAX INT_MIN
    split
    · omega
    · split <;> omega
  unfold propToClipCreate
  by_cases h1 : Pix.isConstantVideoFormat vi = true
  · rw [if_neg (by simp [h1])]
    unfold Pix.isConstantVideoFormat at h1
    rw [decide_eq_true_iff] at h1
    dsimp only
    cases prop with
    | none =>
      dsimp only
      rw [if_neg (by decide), if_pos (neg (by
        rcases h with h | h | h | h | h
        · omega
        · omega
        · omega
        · exact absurd h (by simp)
        · exact h))]
      exact ⟨_, rfl⟩
    | some p =>
      dsimp only
      by_cases h2 : cstr p = ""
      · rw [if_pos h2]; exact ⟨_, rfl⟩
      · rw [if_neg h2, if_pos (neg (by
          rcases h with h | h | h | h | h
          · omega
          · omega
          · omega
          · rw [Option.some.injEq] at h
            rw [h] at h2
            exact absurd rfl h2
          · exact h))]
        exact ⟨_, rfl⟩
  · rw [if_pos h1]; exact ⟨_, rfl⟩

example : ∃ m, propToClipCreate (fun _ => none) ⟨⟨1, 0, 8, 1, 0, 0, 1⟩, 25, 1, 8, 8, 1⟩ none (some (-1)) false World.empty (.ub) = .err m :=
  C64_propToClip_refused _ _ _ _ _ _ _ (by right; right; right; right; exact ⟨-1, rfl, by decide⟩)

end VS.FProps
