import Verif.Eval.Spec

/-!
# The calls of FrameEval and ModifyFrame one by one
-/

namespace VS.Eval
open VS VS.Format VS.Pix VS.Eval.Spec

/-- Between two calls the maps are empty, and only references to nodes are kept. -/
structure Clean (s : Inst) : Prop where
  inp : s.inp = ⟨[], []⟩
  out : s.out = ⟨none, none⟩
  frames : s.frameRefs = 0

theorem requestKey_eq {w : World} (hw : ∀ id, 0 < w.len id) (n id : Nat) : requestKey w n id = (id, min n (w.len id - 1)) := by
  have := hw id
  unfold requestKey
  congr 1
  split <;> omega

theorem getFrame_eq {w : World} (hw : ∀ id, 0 < w.len id) {avail : List Key} {n id : Nat} (h : requestKey w n id ∈ avail) :
    getFrame w avail n id = some (frameAt w n id) := by
  have hl := hw id
  rw [requestKey_eq hw] at h
  have e : (if w.len id ≠ 0 ∧ n ≥ w.len id then w.len id - 1 else n) = min n (w.len id - 1) := by split <;> omega
  unfold getFrame
  simp only [e, if_pos h]
  rfl

theorem collect_eq {w : World} (hw : ∀ id, 0 < w.len id) {avail : List Key} {n : Nat} : ∀ (props : List Nat) (s : Inst),
    (∀ p ∈ props, requestKey w n p ∈ avail) →
    collect w avail n props s = .ok { s with inp := { s.inp with f := s.inp.f ++ props.map (frameAt w n) } }
  | [], s, _ => by simp [collect]
  | p :: t, s, h => by
    unfold collect
    rw [getFrame_eq hw (h p (List.mem_cons_self ..))]
    simp only [freeFrame]
    rw [if_neg (by omega), Res.bind_ok, collect_eq hw t _ (fun q hq => h q (List.mem_cons_of_mem _ hq))]
    simp

/-- One more reference to a node. -/
def addNode (s : Inst) (id : Nat) : Inst := { s with nodeRefs := fun j => if j = id then s.nodeRefs j + 1 else s.nodeRefs j }

/-- One reference to a node less. -/
def dropNode (s : Inst) (id : Nat) : Inst := { s with nodeRefs := fun j => if j = id then s.nodeRefs j - 1 else s.nodeRefs j }

/-- The node of a reply. -/
def replyNode (reply : Out) : Except String Nat :=
  match reply.error with
  | some m => .error m
  | none => match reply.val with
    | some (.node id) => .ok id
    | _ => .error "FrameEval: Function didn't return a clip"

theorem call_eq {s : Inst} (hc : Clean s) (a : In) (reply : Out) :
    callForNode { s with inp := a } reply = match replyNode reply with
      | .error m => (s, .error m)
      | .ok id => (addNode s id, .ok id) := by
  obtain ⟨i, o, nr, fr⟩ := s
  obtain ⟨h1, h2, h3⟩ := hc
  simp only at h1 h2 h3
  subst h1 h2 h3
  obtain ⟨e, v⟩ := reply
  unfold callForNode replyNode callFunction clearIn clearOut addNode
  cases e with
  | some m => rfl
  | none => cases v with
    | none => rfl
    | some v => cases v <;> rfl

theorem finish_eq {w : World} (hw : ∀ id, 0 < w.len id) {vi : VInfo} {avail : List Key} {n id : Nat} {s : Inst} (hc : Clean s)
    (h : requestKey w n id ∈ avail) (hr : 0 < s.nodeRefs id) :
    evalFinish w vi avail n (some id) s = .ok (dropNode s id,
      if wrongSize vi (frameAt w n id) then .failed "FrameEval: Returned frame has wrong dimensions"
      else if wrongFormat vi (frameAt w n id) then .failed "FrameEval: Returned frame has wrong format"
      else .done (frameAt w n id)) := by
  obtain ⟨i, o, nr, fr⟩ := s
  obtain ⟨h1, h2, h3⟩ := hc
  simp only at h1 h2 h3
  subst h1 h2 h3
  simp only at hr
  unfold evalFinish
  simp only [getFrame_eq hw h, freeNode]
  rw [if_neg (by omega), Res.bind_ok]
  unfold freeFrame dropNode
  by_cases e1 : wrongSize vi (frameAt w n id) = true
  · simp [e1]
  · by_cases e2 : wrongFormat vi (frameAt w n id) = true
    · simp [e1, e2]
    · simp [e1, e2]

/-- The frame of a reply. -/
def replyFrame (vi : VInfo) (reply : Out) : Act :=
  match reply.error with
  | some m => .failed m
  | none => match reply.val with
    | some (.frame f) =>
      if wrongFormat vi f then .failed "ModifyFrame: Returned frame has the wrong format"
      else if wrongSize vi f then .failed "ModifyFrame: Returned frame has the wrong dimensions"
      else .done f
    | _ => .failed "ModifyFrame: Returned value not a frame"

theorem modify_eq {vi : VInfo} {s : Inst} (hc : Clean s) (a : In) (reply : Out) :
    modifyFinish vi (callFunction { s with inp := a } reply) = .ok (s, replyFrame vi reply) := by
  obtain ⟨i, o, nr, fr⟩ := s
  obtain ⟨h1, h2, h3⟩ := hc
  simp only at h1 h2 h3
  subst h1 h2 h3
  obtain ⟨e, v⟩ := reply
  unfold modifyFinish replyFrame callFunction clearIn clearOut freeFrame
  cases e with
  | some m => rfl
  | none => cases v with
    | none => rfl
    | some v => cases v with
      | node id => rfl
      | other => rfl
      | frame f =>
        by_cases e1 : wrongFormat vi f = true
        · simp [e1]
        · by_cases e2 : wrongSize vi f = true
          · simp [e1, e2]
          · simp [e1, e2]

/-! ## The checks -/

/-- An audio format has 16 to 32 bits, so that it is no video format. -/
theorem audio_bits {f : AFmt} (h : isValidAudioStruct f = true) : 16 ≤ f.bitsPerSample := by
  unfold isValidAudioStruct at h
  refine Decidable.byContradiction fun hb => ?_
  have : isValidAudioFormat f.sampleType f.bitsPerSample f.channelLayout = false := by
    unfold isValidAudioFormat
    split
    · rfl
    · rw [if_pos (by omega)]
  rw [this] at h
  simp at h

/-- The sample type of a video format is 0 or 1. -/
theorem sample_type {f : VFmt} (h : isValidVideoStruct f = true) : f.sampleType < 16 := by
  refine Decidable.byContradiction fun hb => ?_
  unfold isValidVideoStruct at h
  have : isValidVideoFormat f.colorFamily f.sampleType f.bitsPerSample f.subSamplingW f.subSamplingH = false := by
    unfold isValidVideoFormat stInteger stFloat
    split
    · rfl
    · rw [if_neg (by omega), if_pos (by omega)]
  rw [this] at h
  simp at h

/-- The checks of both filters accept the frames that fit. -/
theorem checks_iff {vi : VInfo} (hv : isValidVideoStruct vi.format = true) {f : Fr} (hf : Sound vi f) :
    (wrongSize vi f = false ∧ wrongFormat vi f = false) ↔ Fits vi f := by
  cases f with
  | video fmt w h d =>
    unfold wrongSize wrongFormat isSameVideoFormat Fits Fr.width Fr.height Fr.format
    simp only [decide_eq_false_iff_not, Bool.and_eq_false_iff, Bool.not_eq_false', decide_eq_true_eq]
    constructor
    · rintro ⟨h1, h2⟩
      refine ⟨fun hk => ?_, fun hs => ?_⟩
      · rcases h2 with h2 | h2
        · exact absurd hk h2
        · exact ⟨h2.1.symm, h2.2.1.symm, h2.2.2.1.symm, h2.2.2.2.1.symm, h2.2.2.2.2.symm⟩
      · omega
    · rintro ⟨h1, h2⟩
      refine ⟨fun hs => ?_, ?_⟩
      · have := h2 hs.1
        omega
      · by_cases hk : vi.format.colorFamily = cfUndefined
        · exact Or.inl (fun h => h hk)
        · have := h1 hk
          exact Or.inr ⟨this.1.symm, this.2.1.symm, this.2.2.1.symm, this.2.2.2.1.symm, this.2.2.2.2.symm⟩
  | audio fmt n h d =>
    have hb := audio_bits hf.2
    have hs := sample_type hv
    refine ⟨fun hh => ?_, fun hh => hh.elim⟩
    have h2 := hh.2
    unfold wrongFormat isSameVideoFormat Fr.format at h2
    simp only [Bool.and_eq_false_iff, Bool.not_eq_false', decide_eq_true_eq, decide_eq_false_iff_not] at h2
    rcases h2 with h2 | h2
    · exact absurd hf.1 h2
    · omega

/-- The core accepts what fits. -/
theorem core_fits {vi : VInfo} {f : Fr} (hf : Fits vi f) : coreCheck vi f = .frame f := by
  cases f with
  | video fmt w h d =>
    obtain ⟨h1, h2⟩ := hf
    unfold coreCheck
    simp only
    rw [if_neg ?_, if_neg ?_]
    · rintro ⟨h3, h4⟩
      have := h2 h3
      omega
    · rintro ⟨h3, h4⟩
      have := h1 h3
      unfold isSameVideoFormat at h4
      rw [decide_eq_false_iff_not] at h4
      exact h4 ⟨this.1.symm, this.2.1.symm, this.2.2.1.symm, this.2.2.2.1.symm, this.2.2.2.2.symm⟩
  | audio fmt n h d => exact hf.elim

end VS.Eval
