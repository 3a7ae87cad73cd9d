import Verif.Audio.PropsTrim
import Verif.Audio.PropsSplice
import Verif.Audio.PropsLoop
import Verif.Audio.PropsShuffle

/-!
# C36: declared frame lengths, AssumeSampleRate, BlankAudio
-/

namespace VS.Audio

set_option maxRecDepth 10000

variable {α : Type}

/-- The number of samples frame `k` of a clip with `N` samples must have. -/
def Spec.frameLength (N k : Nat) : Nat := min 3072 (N - k * 3072)

/-- C36. Whatever a filter function does: a frame that reaches the requester has the declared length and
format (everything else is stopped by the core). -/
theorem C36_core_enforces (f : AFilter α) (clips : List (AClip α)) (out : AClip α) (N : Nat) (hN : f.ai.numSamples = N)
    (h : createAudioFilter f clips = .ok out) (k : Nat) (hk : k < frameCount N) (g : AFrame α) (hg : out.frame k = .ok g) :
    g.len = Spec.frameLength N k ∧ g.format.bitsPerSample = f.ai.format.bitsPerSample ∧
      g.format.sampleType = f.ai.format.sampleType ∧ g.format.channelLayout = f.ai.format.channelLayout := by
  have hlt := lt_of_lt_frameCount hk
  unfold createAudioFilter at h
  split at h
  · cases h
  split at h
  · cases h
  cases h
  simp only at hg
  unfold AFilter.run at hg
  cases h1 : f.initial k with
  | ok reqs =>
    rw [h1] at hg
    simp only [Res.bind_ok] at hg
    cases h2 : serve clips reqs with
    | ok avail =>
      rw [h2] at hg
      simp only [Res.bind_ok] at hg
      cases h3 : f.ready k (fetchFrom clips avail) with
      | ok r =>
        rw [h3] at hg
        simp only [Res.bind_ok] at hg
        unfold checkFrame at hg
        split at hg
        · cases hg
        rename_i hfmt
        split at hg
        · cases hg
        rename_i hlen
        cases hg
        have hnf : (f.ai.numSamples + SAMPLES - 1).tdiv SAMPLES = (frameCount N : Int) := by
          rw [hN]
          unfold SAMPLES frameCount
          rw [show (N : Int) + 3072 - 1 = ((N + 3071 : Nat) : Int) by omega]
          exact (Int.ofNat_tdiv (N + 3071) 3072).symm
        rw [expected_eq (N := N) (by simp only; exact hN) (by simp only; exact hnf) hk] at hlen
        simp only at hfmt
        refine ⟨?_, ?_, ?_, ?_⟩
        · unfold Spec.frameLength; omega
        · apply Classical.byContradiction; intro e; exact hfmt (Or.inl (fun x => e x.symm))
        · apply Classical.byContradiction; intro e; exact hfmt (Or.inr (Or.inl (fun x => e x.symm)))
        · apply Classical.byContradiction; intro e; exact hfmt (Or.inr (Or.inr (fun x => e x.symm)))
      | err m => rw [h3] at hg; cases hg
      | fatal m => rw [h3] at hg; cases hg
      | ub => rw [h3] at hg; cases hg
    | err m => rw [h2] at hg; cases hg
    | fatal m => rw [h2] at hg; cases hg
    | ub => rw [h2] at hg; cases hg
  | err m => rw [h1] at hg; cases hg
  | fatal m => rw [h1] at hg; cases hg
  | ub => rw [h1] at hg; cases hg

/-- C36 for the editing filters: every request to AudioTrim, AudioSplice, AudioLoop, AudioReverse and ShuffleChannels
with legal arguments is answered with a frame of the declared length; the core's fatal check never fires. -/
theorem C36_editing_filters_partial [Zero α] (clip : AClip α) (N : Nat) (sig : Signal α) (h : clip.Carries N sig) :
    (∀ first last length, Spec.TrimLegal N first last length → ∃ out, audioTrimCreate clip first last length = .ok out ∧
      ∀ k, k < frameCount (Spec.trimCount N first last length).toNat →
        ∃ g, out.frame k = .ok g ∧ g.len = Spec.frameLength (Spec.trimCount N first last length).toNat k) ∧
    (∃ out, audioReverseCreate clip = .ok out ∧ ∀ k, k < frameCount N →
      ∃ g, out.frame k = .ok g ∧ g.len = Spec.frameLength N k) ∧
    (∀ times : Option Int, 0 ≤ times.getD 0 → Spec.loopCount N (times.getD 0) ≤ MAX_SAMPLES →
      ∃ out, audioLoopCreate clip times = .ok out ∧ ∀ k, k < frameCount (Spec.loopCount N (times.getD 0)).toNat →
        ∃ g, out.frame k = .ok g ∧ g.len = Spec.frameLength (Spec.loopCount N (times.getD 0)).toNat k) ∧
    (∀ rest : List (AClip α × Nat × Signal α), (∀ x ∈ rest, x.1.Carries x.2.1 x.2.2) →
      (∀ x ∈ rest, isSameAudioInfo clip.ai x.1.ai = true) →
      ((N + (rest.map (·.2.1)).sum : Nat) : Int) ≤ MAX_SAMPLES →
      ∃ out, audioSpliceCreate (clip :: rest.map (·.1)) = .ok out ∧ ∀ k, k < frameCount (N + (rest.map (·.2.1)).sum) →
        ∃ g, out.frame k = .ok g ∧ g.len = Spec.frameLength (N + (rest.map (·.2.1)).sum) k) ∧
    (∀ (rest : List (AClip α × Nat × Signal α)) ins outs, (∀ x ∈ rest, x.1.Carries x.2.1 x.2.2) →
      ShuffleLegal ((clip, N, sig) :: rest) ins outs →
      ∃ out M, shuffleCreate (clip :: rest.map (·.1)) ins outs = .ok out ∧ out.ai.numSamples = (M : Nat) ∧
        ∀ k, k < frameCount M → ∃ g, out.frame k = .ok g ∧ g.len = Spec.frameLength M k) := by
  have key : ∀ (out : AClip α) (M : Nat) (s : Signal α), out.Carries M s → ∀ k, k < frameCount M →
      ∃ g, out.frame k = .ok g ∧ g.len = Spec.frameLength M k := by
    intro out M s ho k hk
    obtain ⟨g, g1, g2⟩ := ho.content k hk
    exact ⟨g, g1, g2.len⟩
  refine ⟨?_, ?_, ?_, ?_, ?_⟩
  · intro first last length hl
    obtain ⟨out, o1, o2, -⟩ := C33_audioTrim clip N sig h first last length hl
    exact ⟨out, o1, key _ _ _ o2⟩
  · obtain ⟨out, o1, o2, -⟩ := C35_audioReverse clip N sig h
    exact ⟨out, o1, key _ _ _ o2⟩
  · intro times h1 h2
    obtain ⟨out, o1, o2, -⟩ := C34_audioLoop clip N sig h times h1 h2
    exact ⟨out, o1, key _ _ _ o2⟩
  · intro rest h1 h2 h3
    obtain ⟨out, o1, o2, -⟩ := C34_audioSplice (clip, N, sig) rest sig (by
      intro x hx
      rcases List.mem_cons.1 hx with rfl | hx
      · exact h
      · exact h1 x hx) h2 (by simpa using h3)
    exact ⟨out, o1, key _ _ _ o2⟩
  · intro rest ins outs h1 h2
    obtain ⟨out, M, s, o1, o2⟩ := C37_shuffleChannels ((clip, N, sig) :: rest) ins outs (by simp) (by
      intro x hx
      rcases List.mem_cons.1 hx with rfl | hx
      · exact h
      · exact h1 x hx) h2
    exact ⟨out, M, o1, o2.carries.count, key _ _ _ o2.carries⟩

/-! ## AssumeSampleRate -/

/-- `AssumeSampleRate` changes the declared rate and nothing else. -/
theorem C36_assumeSampleRate (clip : AClip α) (N : Nat) (sig : Signal α) (h : clip.Carries N sig)
    (rate src : Option Int) (r : Int) (hr : (src = some r ∧ rate = none) ∨ (src = none ∧ rate = some r)) (h1 : 1 ≤ r)
    (h2 : r ≤ INT_MAX) :
    ∃ out, assumeSampleRateCreate clip rate src = .ok out ∧ out.Carries N sig ∧ out.ai = { clip.ai with sampleRate := r } := by
  have hi : int64ToIntS r = r := int64ToIntS_of_inI32 ⟨by simp only [INT_MIN]; omega, h2⟩
  have hc : assumeSampleRateCreate clip rate src =
      createAudioFilter (assumeFilter { clip.ai with sampleRate := r }) [clip] := by
    unfold assumeSampleRateCreate
    rcases hr with ⟨rfl, rfl⟩ | ⟨rfl, rfl⟩
    · simp only [Option.isSome_none, Option.isSome_some]
      rw [if_neg (by simp), if_neg (by omega)]
    · simp only [Option.isSome_none, Option.isSome_some, Option.getD_some, hi]
      rw [if_neg (by simp), if_neg (by omega)]
  have hcnt := h.count
  have hv : isValidAudioInfo { clip.ai with sampleRate := r } = true := by
    have hi := h.info
    unfold isValidAudioInfo at hi ⊢
    split at hi
    · cases hi
    · rename_i hf
      simp only
      rw [if_neg hf]
      split at hi
      · cases hi
      · rename_i hn
        rw [if_neg (by omega)]
  obtain ⟨out, o1, o2, o3⟩ := create_carries' (assumeFilter { clip.ai with sampleRate := r }) [clip] N sig hv hcnt h.range (by
    intro k hk
    refine ⟨[(0, (k : Int))], rfl, ?_, ?_⟩
    · intro q hq
      simp at hq
      subst hq
      exact ⟨by simp only; omega, clip, N, sig, rfl, h⟩
    · intro fetch hf
      obtain ⟨g, hg1, hg2⟩ := hf 0 k (by simp) clip N sig rfl h
      rw [show min ((k : Int)).toNat (frameCount N - 1) = k by omega] at hg2
      refine ⟨g, ?_, hg2⟩
      simp only [assumeFilter, hg1])
  refine ⟨out, by rw [hc]; exact o1, o2, ?_⟩
  rw [o3]
  simp only [assumeFilter, ← h.frames]

/-- `AssumeSampleRate` wants exactly one of the two arguments. -/
theorem C36_assumeSampleRate_reject (clip : AClip α) (rate src : Option Int) (h : rate.isSome = src.isSome) :
    ∃ msg, assumeSampleRateCreate clip rate src = .err msg := by
  unfold assumeSampleRateCreate
  rw [if_pos h]
  exact ⟨_, rfl⟩

/-! ## BlankAudio -/

/-- Silence of the declared length. -/
def Spec.IsSilence [Zero α] (fmt : AudioFormat) (N k : Nat) (f : AFrame α) : Prop := IsFrame fmt N (fun _ _ => (0 : α)) k f

theorem blank_fresh [Zero α] (ai : AudioInfo) (N : Nat) (hN : ai.numSamples = N) (hnf : ai.numFrames = frameCount N)
    (keep : Bool) (k : Nat) (hk : k < frameCount N) :
    ∃ f : AFrame α, blankGetFrame ai keep none k = .ok (f, if keep then some f else none) ∧
      checkFrame ai k f = .ok f ∧ Spec.IsSilence ai.format N k f := by
  have hlt := lt_of_lt_frameCount hk
  have hs : min SAMPLES (ai.numSamples - (k : Int) * SAMPLES) = ((min 3072 (N - k * 3072) : Nat) : Int) := by
    rw [hN]; unfold SAMPLES; omega
  refine ⟨⟨ai.format, ((min 3072 (N - k * 3072) : Nat) : Int), fun c i =>
    if c < ai.format.numChannels ∧ (i : Int) < ((min 3072 (N - k * 3072) : Nat) : Int) then some 0 else none⟩, ?_, ?_, ?_⟩
  · unfold blankGetFrame
    simp only [hs]
    rw [newAudioFrame_ok (by omega)]
    cases keep <;> rfl
  · unfold checkFrame
    rw [if_neg (by simp), expected_eq hN hnf hk, if_neg (by simp)]
  · refine ⟨rfl, rfl, ?_⟩
    intro c hc i hi
    simp only
    rw [if_pos ⟨hc, by omega⟩]

/-- C36, BlankAudio without `keep`: any sequence of requests is served with silence of the declared lengths. -/
theorem C36_blankAudio [Zero α] (ai : AudioInfo) (N : Nat) (hN : ai.numSamples = N) (hnf : ai.numFrames = frameCount N)
    (reqs : List Nat) (hr : ∀ k ∈ reqs, k < frameCount N) :
    ∃ fs : List (AFrame α), blankServe ai false none reqs = .ok fs ∧ fs.length = reqs.length ∧
      ∀ (i : Nat) (k : Nat) (f : AFrame α), reqs[i]? = some k → fs[i]? = some f → Spec.IsSilence ai.format N k f := by
  induction reqs with
  | nil => exact ⟨[], rfl, rfl, by simp⟩
  | cons k rest ih =>
    obtain ⟨fs, e1, e2, e3⟩ := ih (fun x hx => hr x (by simp [hx]))
    obtain ⟨f, f1, f2, f3⟩ := blank_fresh (α := α) ai N hN hnf false k (hr k (by simp))
    refine ⟨f :: fs, ?_, by simp [e2], ?_⟩
    · unfold blankServe
      rw [f1]
      simp only [Res.bind]
      rw [f2]
      simp only
      simp [e1]
    · intro i k' f' hk hf
      cases i with
      | zero => simp at hk hf; subst hk hf; exact f3
      | succ i => simp at hk hf; exact e3 i k' f' hk hf

/-- C36, BlankAudio with `keep` is fine when all frames have the same length, i.e. when the clip is a whole number of
frames or a single frame. -/
theorem C36_blankAudio_keep_even [Zero α] (ai : AudioInfo) (N : Nat) (hN : ai.numSamples = N)
    (hnf : ai.numFrames = frameCount N) (heven : N % 3072 = 0 ∨ N ≤ 3072)
    (reqs : List Nat) (hr : ∀ k ∈ reqs, k < frameCount N) :
    ∃ fs : List (AFrame α), blankServe ai true none reqs = .ok fs ∧ fs.length = reqs.length ∧
      ∀ (i : Nat) (k : Nat) (f : AFrame α), reqs[i]? = some k → fs[i]? = some f → Spec.IsSilence ai.format N k f := by
  have same : ∀ k j, k < frameCount N → j < frameCount N → min 3072 (N - k * 3072) = min 3072 (N - j * 3072) := by
    intro k j hk hj
    unfold frameCount at hk hj
    omega
  have main : ∀ (reqs : List Nat), (∀ k ∈ reqs, k < frameCount N) → ∀ (kept : AFrame α) (k0 : Nat), k0 < frameCount N →
      Spec.IsSilence ai.format N k0 kept →
      ∃ fs : List (AFrame α), blankServe ai true (some kept) reqs = .ok fs ∧ fs.length = reqs.length ∧
        ∀ (i : Nat) (k : Nat) (f : AFrame α), reqs[i]? = some k → fs[i]? = some f → Spec.IsSilence ai.format N k f := by
    intro reqs
    induction reqs with
    | nil => intro _ kept k0 _ _; exact ⟨[], rfl, rfl, by simp⟩
    | cons k rest ih =>
      intro hr kept k0 hk0 hs
      have hk := hr k (by simp)
      obtain ⟨fs, e1, e2, e3⟩ := ih (fun x hx => hr x (by simp [hx])) kept k0 hk0 hs
      have hsk : Spec.IsSilence ai.format N k kept := by
        refine ⟨hs.format, by rw [hs.len, same k k0 hk hk0], ?_⟩
        intro c hc i hi
        rw [same k k0 hk hk0] at hi
        exact hs.samples c hc i hi
      refine ⟨kept :: fs, ?_, by simp [e2], ?_⟩
      · unfold blankServe blankGetFrame
        simp only [if_true, Res.bind]
        have : checkFrame ai (k : Int) kept = .ok kept := by
          unfold checkFrame
          rw [if_neg (by simp [hs.format]), expected_eq hN hnf hk, if_neg (by rw [hsk.len]; simp)]
        rw [this]
        simp only
        rw [e1]
      · intro i k' f' hk hf
        cases i with
        | zero => simp at hk hf; subst hk hf; exact hsk
        | succ i => simp at hk hf; exact e3 i k' f' hk hf
  cases reqs with
  | nil => exact ⟨[], rfl, rfl, by simp⟩
  | cons k rest =>
    have hk := hr k (by simp)
    obtain ⟨f, f1, f2, f3⟩ := blank_fresh (α := α) ai N hN hnf true k hk
    obtain ⟨fs, e1, e2, e3⟩ := main rest (fun x hx => hr x (by simp [hx])) f k hk f3
    refine ⟨f :: fs, ?_, by simp [e2], ?_⟩
    · unfold blankServe
      rw [f1]
      simp only [Res.bind]
      rw [f2]
      simp only [if_true]
      rw [e1]
    · intro i k' f' hk hf
      cases i with
      | zero => simp at hk hf; subst hk hf; exact f3
      | succ i => simp at hk hf; exact e3 i k' f' hk hf

/-- C36, finding: BlankAudio with `keep` violates the property whenever the last frame is shorter than the others.
Asking for the first frame and then for the last one (or the other way round) aborts the process: the kept frame
has the length of whichever frame was asked for first. -/
theorem C36_blankAudio_keep_fatal [Zero α] (ai : AudioInfo) (N : Nat) (hN : ai.numSamples = N)
    (hnf : ai.numFrames = frameCount N) (hlong : 3072 < N) (hodd : N % 3072 ≠ 0) :
    (∃ msg, blankServe (α := α) ai true none [0, frameCount N - 1] = .fatal msg) ∧
    ∃ msg, blankServe (α := α) ai true none [frameCount N - 1, 0] = .fatal msg := by
  have hpos := frameCount_pos (N := N) (by omega)
  have hk0 : 0 < frameCount N := by omega
  have hk1 : frameCount N - 1 < frameCount N := by omega
  have hdiff : min 3072 (N - (frameCount N - 1) * 3072) < min 3072 (N - 0 * 3072) := by
    unfold frameCount; omega
  have bad : ∀ k j, k < frameCount N → j < frameCount N → min 3072 (N - k * 3072) ≠ min 3072 (N - j * 3072) →
      ∃ msg, blankServe (α := α) ai true none [k, j] = .fatal msg := by
    intro k j hk hj hne
    obtain ⟨f, f1, f2, f3⟩ := blank_fresh (α := α) ai N hN hnf true k hk
    have hbad : checkFrame ai (j : Int) f = .fatal "returned audio frame with the wrong number of samples" := by
      unfold checkFrame
      rw [if_neg (by simp [f3.format]), expected_eq hN hnf hj, if_pos]
      rw [f3.len]
      intro e
      apply hne
      omega
    refine ⟨"returned audio frame with the wrong number of samples", ?_⟩
    unfold blankServe
    rw [f1]
    simp only [Res.bind]
    rw [f2]
    simp only [if_true, blankServe, blankGetFrame, Res.bind]
    rw [hbad]
  exact ⟨bad _ _ hk0 hk1 (by omega), bad _ _ hk1 hk0 (by omega)⟩

/-! ## The hypotheses can be met -/

section Examples

/-- Stereo, 16 bit integer. -/
def stereo : AudioFormat := ⟨0, 16, 2, 2, 3⟩

/-- A stereo clip of `N` samples that counts: channel `c` has sample `1000000 * c + p` at position `p`. -/
def countClip (N : Nat) : AClip Nat := AClip.ofSignal stereo 48000 N (fun c p => 1000000 * c + p)

theorem countClip_carries (N : Nat) (h0 : 1 ≤ N) (h1 : (N : Int) ≤ MAX_SAMPLES) :
    (countClip N).Carries N (fun c p => 1000000 * c + p) := by
  apply AClip.ofSignal_carries _ _ h1
  unfold isValidAudioInfo
  have : isValidAudioFormat stereo = true := by decide +kernel
  simp only [this]
  rw [if_neg (by simp), if_neg (by omega)]

/-- C33: a misaligned cut of 4000 samples out of 10000. -/
example : ∃ out, audioTrimCreate (countClip 10000) (some 1234) (some 5233) none = .ok out ∧
    out.Carries 4000 (fun c p => 1000000 * c + (1234 + p)) := by
  obtain ⟨out, h1, h2, -⟩ := C33_audioTrim (countClip 10000) 10000 _ (countClip_carries 10000 (by decide) (by decide))
    (some 1234) (some 5233) none ⟨by decide, by decide, by decide, by simp, by simp⟩
  exact ⟨out, h1, h2⟩

/-- C33: cutting past the end is refused. -/
example : ∃ msg, audioTrimCreate (countClip 10000) (some 9000) none (some 1001) = .err msg :=
  C33_audioTrim_reject _ 10000 _ (countClip_carries 10000 (by decide) (by decide)) _ _ _
    (fun h => by have := h.length_ok 1001 rfl; simp at this) (by simp [INT64_MAX])

/-- C34: three clips of which the middle one is shorter than a frame. -/
example : ∃ out, audioSpliceCreate [countClip 5000, countClip 7, countClip 3072] = .ok out ∧
    out.Carries 8079 (Spec.concat [(5000, fun c p => 1000000 * c + p), (7, fun c p => 1000000 * c + p),
      (3072, fun c p => 1000000 * c + p)] (fun _ _ => 0)) := by
  obtain ⟨out, h1, h2, -⟩ := C34_audioSplice (countClip 5000, 5000, fun c p => 1000000 * c + p)
    [(countClip 7, 7, fun c p => 1000000 * c + p), (countClip 3072, 3072, fun c p => 1000000 * c + p)] (fun _ _ => 0)
    (by
      intro x hx
      simp only [List.mem_cons, List.not_mem_nil, or_false] at hx
      rcases hx with rfl | rfl | rfl
      · exact countClip_carries 5000 (by decide) (by decide)
      · exact countClip_carries 7 (by decide) (by decide)
      · exact countClip_carries 3072 (by decide) (by decide))
    (by intro x hx; simp only [List.mem_cons, List.not_mem_nil, or_false] at hx; rcases hx with rfl | rfl <;> rfl)
    (by decide)
  exact ⟨out, h1, h2⟩

/-- C34: a clip of 5 samples repeated 1000 times. -/
example : ∃ out, audioLoopCreate (countClip 5) (some 1000) = .ok out ∧
    out.Carries 5000 (fun c p => 1000000 * c + p % 5) := by
  obtain ⟨out, h1, h2, -⟩ := C34_audioLoop (countClip 5) 5 _ (countClip_carries 5 (by decide) (by decide)) (some 1000)
    (by decide) (by decide)
  exact ⟨out, h1, h2⟩

/-- C35. -/
example : ∃ out, audioReverseCreate (countClip 5000) = .ok out ∧
    out.Carries 5000 (fun c p => 1000000 * c + (5000 - 1 - p)) := by
  obtain ⟨out, h1, h2, -⟩ := C35_audioReverse (countClip 5000) 5000 _ (countClip_carries 5000 (by decide) (by decide))
  exact ⟨out, h1, h2⟩

/-- C37: swapping the channels of a clip. -/
example : ∃ out N sig, shuffleCreate [countClip 5000] [1, 0] [0, 1] = .ok out ∧
    Shuffled [(countClip 5000, 5000, fun c p => 1000000 * c + p)] [1, 0] [0, 1] out N sig := by
  apply C37_shuffleChannels [(countClip 5000, 5000, fun c p => 1000000 * c + p)] [1, 0] [0, 1] (by simp)
  · intro x hx; simp at hx; subst hx; exact countClip_carries 5000 (by decide) (by decide)
  · refine ⟨rfl, by decide, by simp, by simp, by simp, ?_, ?_⟩
    · intro x hx y hy; simp at hx hy; subst hx hy; simp
    · intro j a x ha hx
      have hj : j < 2 := (List.getElem?_eq_some_iff.1 ha).1
      have hx' : x = (countClip 5000, 5000, fun c p => 1000000 * c + p) := by
        simp at hx; exact hx.symm
      subst hx'
      have : j = 0 ∨ j = 1 := by omega
      rcases this with rfl | rfl
      · simp at ha; subst ha
        exact ⟨1, by decide, by decide +kernel⟩
      · simp at ha; subst ha
        exact ⟨0, by decide, by decide +kernel⟩

/-- C36: a 3073 sample blank clip with `keep`. -/
example : ∃ msg, blankServe (α := Nat) ⟨stereo, 48000, 3073, 2⟩ true none [0, 1] = .fatal msg :=
  (C36_blankAudio_keep_fatal ⟨stereo, 48000, 3073, 2⟩ 3073 rfl rfl (by decide) (by decide)).1

end Examples

end VS.Audio
