import Verif.Audio.Lemmas

/-!
# C33, C35: AudioTrim and AudioReverse
-/

namespace VS.Audio

variable {α : Type}

theorem trimPos_eq (ai : AudioInfo) (F L k : Nat) (hL : ai.numSamples = L) (hk : k < frameCount L)
    (hmax : ((F + L : Nat) : Int) ≤ MAX_SAMPLES) :
    trimPos ai F k = .ok (((k * 3072 + F : Nat) : Int), (((k * 3072 + F) / 3072 : Nat) : Int),
      ((min 3072 (L - k * 3072) : Nat) : Int)) := by
  have hlt := lt_of_lt_frameCount hk
  unfold MAX_SAMPLES SAMPLES INT_MAX at hmax
  unfold trimPos SAMPLES
  rw [i64_ok (by simp only [InI64, INT64_MIN, INT64_MAX]; omega)]
  simp only [Res.bind_ok]
  rw [i64_ok (by simp only [InI64, INT64_MIN, INT64_MAX]; omega)]
  simp only [Res.bind_ok]
  have e1 : ((k : Int) * 3072 + (F : Int)) = ((k * 3072 + F : Nat) : Int) := by omega
  have e2 : (((k * 3072 + F : Nat) : Int)).tdiv 3072 = (((k * 3072 + F) / 3072 : Nat) : Int) := rfl
  rw [e1, e2, i32_ok (by simp only [InI32, INT_MIN, INT_MAX]; omega)]
  simp only [Res.bind_ok]
  rw [hL, i32_ok (by simp only [InI32, INT_MIN, INT_MAX]; omega)]
  simp only [Res.bind_ok, Res.pure_eq]
  congr 3
  omega

set_option maxRecDepth 10000 in
theorem trim_filter_carries (clip : AClip α) (N : Nat) (sig : Signal α) (h : clip.Carries N sig) (F L : Nat)
    (hL : 1 ≤ L) (hFL : F + L ≤ N) :
    ∃ out, createAudioFilter (trimFilter { clip.ai with numSamples := (L : Int) } F) [clip] = .ok out ∧
      out.Carries L (Spec.shifted F sig) ∧
      out.ai = { clip.ai with numSamples := (L : Int), numFrames := frameCount L } := by
  have hmaxN := h.range
  have hmaxN' : (N : Int) ≤ 2147483647 * 3072 := hmaxN
  apply create_carries' (trimFilter { clip.ai with numSamples := (L : Int) } F) [clip] L (Spec.shifted F sig)
    (valid_withSamples h.info (by omega)) rfl (by omega)
  clear hmaxN
  intro k hk
  have hlt := lt_of_lt_frameCount hk
  have hpos := trimPos_eq { clip.ai with numSamples := (L : Int) } F L k rfl hk (by simp only [MAX_SAMPLES, SAMPLES, INT_MAX]; omega)
  have hfr : (k * 3072 + F) / 3072 < frameCount N :=
    lt_frameCount (Nat.lt_of_le_of_lt (Nat.div_mul_le_self _ _) (by omega))
  have emod : (((k * 3072 + F : Nat) : Int)).tmod SAMPLES = (((k * 3072 + F) % 3072 : Nat) : Int) :=
    (Int.ofNat_tmod _ _).symm
  generalize hlen : min 3072 (L - k * 3072) = len at hpos
  have hqr := Nat.div_add_mod (k * 3072 + F) 3072
  have hr3 := Nat.mod_lt (k * 3072 + F) (y := 3072) (by decide)
  generalize hq : (k * 3072 + F) / 3072 = q at *
  generalize hrr : (k * 3072 + F) % 3072 = r at *
  clear hq hrr
  simp only [trimFilter, trimInitial, trimReady, hpos, Res.bind_ok, emod]
  by_cases hal : (r : Int) = 0 ∧ (k : Int) ≠ clip.ai.numFrames - 1
  · simp only [if_pos hal]
    refine ⟨_, rfl, ?_, ?_⟩
    · intro r hr; simp at hr; subst hr
      exact ⟨by simp only; omega, clip, N, sig, rfl, h⟩
    · intro fetch hf
      obtain ⟨g, hg, hgf⟩ := hf 0 q (by simp) clip N sig rfl h
      have eq' : min ((q : Int)).toNat (frameCount N - 1) = q := by omega
      rw [eq'] at hgf
      rw [hg]
      simp only [deref, Res.bind_ok]
      by_cases hl : (len : Int) = g.len
      · rw [if_pos hl]
        refine ⟨g, rfl, hgf.format, ?_, ?_⟩
        · rw [← hl, hlen]
        · intro c hc i hi
          rw [hlen] at hi
          rw [hgf.len] at hl
          rw [hgf.samples c hc i (by omega)]
          unfold Spec.shifted
          congr 2; omega
      · rw [if_neg hl, newAudioFrame_ok (by omega)]
        simp only [Res.bind_ok]
        obtain ⟨b, hb1, hb2⟩ := copyAll_ok (nch := clip.ai.format.numChannels) (dst := fun _ _ => none) (src := g.ch)
          (doff := 0) (soff := 0) (n := (len : Int)) (by omega) (by omega) (by omega) (by omega) (by omega)
        rw [hb1]
        refine ⟨_, rfl, rfl, by simp only [hlen], ?_⟩
        intro c hc i hi
        rw [hlen] at hi
        simp only
        rw [hb2, if_pos ⟨hc, by omega, by omega⟩, hgf.samples c hc _ (by
          rw [show i - (0 : Int).toNat + (0 : Int).toNat = i by omega]; omega)]
        unfold Spec.shifted
        congr 2; omega
  · simp only [if_neg hal]
    have hS : SAMPLES = 3072 := rfl
    simp only [hS]
    by_cases h2 : (3072 : Int) - (r : Int) < (len : Int)
    · simp only [if_pos h2]
      refine ⟨_, rfl, ?_, ?_⟩
      · intro r hr
        simp at hr
        rcases hr with rfl | rfl
        · exact ⟨by simp only; omega, clip, N, sig, rfl, h⟩
        · exact ⟨by simp only; omega, clip, N, sig, rfl, h⟩
      · intro fetch hf
        obtain ⟨g, hg, hgf⟩ := hf 0 q (by simp) clip N sig rfl h
        obtain ⟨g2, hg2, hgf2⟩ := hf 0 ((q : Int) + 1) (by simp) clip N sig rfl h
        have hq1 : q + 1 < frameCount N := lt_frameCount (by omega)
        have eq1 : min ((q : Int)).toNat (frameCount N - 1) = q := by omega
        have eq2 : min ((q : Int) + 1).toNat (frameCount N - 1) = q + 1 := by omega
        rw [eq1] at hgf
        rw [eq2] at hgf2
        rw [hg, hg2]
        simp only [deref, Res.bind_ok]
        rw [newAudioFrame_ok (by omega)]
        simp only [Res.bind_ok]
        obtain ⟨b, hb1, hb2⟩ := copyAll_ok (nch := clip.ai.format.numChannels) (dst := fun _ _ => none) (src := g.ch)
          (doff := 0) (soff := (3072 : Int) - (3072 - (r : Int))) (n := 3072 - (r : Int))
          (by omega) (by omega) (by omega) (by omega) (by omega)
        rw [hb1]
        simp only [Res.bind_ok]
        obtain ⟨b', hb1', hb2'⟩ := copyAll_ok (nch := clip.ai.format.numChannels) (dst := b) (src := g2.ch)
          (doff := 3072 - (r : Int)) (soff := 0) (n := (len : Int) - (3072 - (r : Int)))
          (by omega) (by omega) (by omega) (by omega) (by omega)
        rw [hb1']
        refine ⟨_, rfl, rfl, by simp only [hlen], ?_⟩
        intro c hc i hi
        rw [hlen] at hi
        simp only
        rw [hb2']
        by_cases hi2 : 3072 - r ≤ i
        · rw [if_pos ⟨hc, by omega, by omega⟩, hgf2.samples c hc _ (by omega)]
          unfold Spec.shifted
          congr 2; omega
        · rw [if_neg (by omega), hb2, if_pos ⟨hc, by omega, by omega⟩, hgf.samples c hc _ (by omega)]
          unfold Spec.shifted
          congr 2; omega
    · simp only [if_neg h2]
      refine ⟨_, rfl, ?_, ?_⟩
      · intro r hr; simp at hr; subst hr
        exact ⟨by simp only; omega, clip, N, sig, rfl, h⟩
      · intro fetch hf
        obtain ⟨g, hg, hgf⟩ := hf 0 q (by simp) clip N sig rfl h
        have eq1 : min ((q : Int)).toNat (frameCount N - 1) = q := by omega
        rw [eq1] at hgf
        rw [hg]
        simp only [deref, Res.bind_ok]
        rw [newAudioFrame_ok (by omega)]
        simp only [Res.bind_ok]
        obtain ⟨b, hb1, hb2⟩ := copyAll_ok (nch := clip.ai.format.numChannels) (dst := fun _ _ => none) (src := g.ch)
          (doff := 0) (soff := (3072 : Int) - (3072 - (r : Int))) (n := 3072 - (r : Int))
          (by omega) (by omega) (by omega) (by omega) (by omega)
        rw [hb1]
        refine ⟨_, rfl, rfl, by simp only [hlen], ?_⟩
        intro c hc i hi
        rw [hlen] at hi
        simp only
        rw [hb2, if_pos ⟨hc, by omega, by omega⟩, hgf.samples c hc _ (by omega)]
        unfold Spec.shifted
        congr 2; omega

/-! ## C33 -/

/-- C33. With legal arguments `AudioTrim` succeeds and the result carries exactly the samples
`first .. first + length - 1` of the input, in all channels; format and sample rate are unchanged. -/
theorem C33_audioTrim (clip : AClip α) (N : Nat) (sig : Signal α) (h : clip.Carries N sig)
    (first last length : Option Int) (hl : Spec.TrimLegal N first last length) :
    ∃ out, audioTrimCreate clip first last length = .ok out ∧
      out.Carries (Spec.trimCount N first last length).toNat (Spec.shifted (first.getD 0).toNat sig) ∧
      out.ai.format = clip.ai.format ∧ out.ai.sampleRate = clip.ai.sampleRate := by
  obtain ⟨h1, h2, h3, h4, h5⟩ := hl
  have hcnt := h.count
  have hr := h.range
  unfold MAX_SAMPLES SAMPLES INT_MAX at hr
  have hpast : trimPastEnd (first.getD 0) clip.ai.numSamples last length = .ok false := by
    unfold trimPastEnd
    rw [if_neg]
    · cases length with
      | none => rfl
      | some n =>
        have := h5 n rfl
        simp only
        rw [i64_ok (by simp only [InI64, INT64_MIN, INT64_MAX]; omega)]
        simp only [Res.bind_ok, Res.pure_eq]
        congr 1
        rw [decide_eq_false_iff_not]; omega
    · cases last with
      | none => simp
      | some l => have := h4 l rfl; simp; omega
  have hlen : trimLen (first.getD 0) clip.ai.numSamples last length = Spec.trimCount N first last length := by
    unfold trimLen Spec.trimCount
    cases last with
    | some l => simp only; omega
    | none =>
      cases length with
      | some n => rfl
      | none => simp only; omega
  have hb : 1 ≤ Spec.trimCount N first last length ∧ first.getD 0 + Spec.trimCount N first last length ≤ N := by
    unfold Spec.trimCount
    cases last with
    | some l => have := h4 l rfl; simp only; omega
    | none =>
      cases length with
      | some n => have := h5 n rfl; simp only; omega
      | none => simp only; omega
  obtain ⟨F, hF⟩ : ∃ F : Nat, first.getD 0 = (F : Int) := ⟨(first.getD 0).toNat, by omega⟩
  obtain ⟨L, hL⟩ : ∃ L : Nat, Spec.trimCount N first last length = (L : Int) :=
    ⟨(Spec.trimCount N first last length).toNat, by omega⟩
  unfold audioTrimCreate
  simp only []
  rw [if_neg (by omega), if_neg (by omega), if_neg (by simpa using h3), if_neg, if_neg, hpast]
  · simp only [Res.bind_ok, Bool.false_eq_true, if_false]
    rw [hlen, hL, hF]
    simp only [Int.toNat_natCast]
    split
    · rename_i hpass
      refine ⟨clip, rfl, ?_, rfl, rfl⟩
      have hNL : L = N := by
        rcases hpass with ⟨a, b, c⟩ | ⟨-, b⟩
        · have e1 : first = none := by simpa using a
          have e2 : last = none := by simpa using b
          have e3 : length = none := by simpa using c
          subst e1 e2 e3
          simp [Spec.trimCount] at hL
          omega
        · omega
      subst hNL
      have hF0 : F = 0 := by omega
      subst hF0
      have e : Spec.shifted 0 sig = sig := by funext c p; simp [Spec.shifted]
      rw [e]; exact h
    · obtain ⟨out, ho1, ho2, ho3⟩ := trim_filter_carries clip N sig h F L (by omega) (by omega)
      exact ⟨out, ho1, ho2, by rw [ho3], by rw [ho3]⟩
  · cases length with
    | none => simp
    | some n => have := h5 n rfl; simp; omega
  · cases last with
    | none => simp
    | some l => have := h4 l rfl; simp; omega

/-- C33, rejection: illegal arguments are reported as an error as long as `first + length` can be
represented in 64 bits. -/
theorem C33_audioTrim_reject (clip : AClip α) (N : Nat) (sig : Signal α) (h : clip.Carries N sig)
    (first last length : Option Int) (hl : ¬ Spec.TrimLegal N first last length)
    (hlen : ∀ n, length = some n → (N : Int) + n ≤ INT64_MAX) :
    ∃ msg, audioTrimCreate clip first last length = .err msg := by
  have hcnt := h.count
  have hr := h.range
  unfold MAX_SAMPLES SAMPLES INT_MAX at hr
  unfold audioTrimCreate
  simp only []
  split
  · exact ⟨_, rfl⟩
  split
  · exact ⟨_, rfl⟩
  split
  · exact ⟨_, rfl⟩
  split
  · exact ⟨_, rfl⟩
  split
  · exact ⟨_, rfl⟩
  rename_i n1 n2 n3 n4 n5
  have hpast : trimPastEnd (first.getD 0) clip.ai.numSamples last length = .ok true := by
    unfold trimPastEnd
    by_cases hp : last.isSome ∧ last.getD 0 ≥ clip.ai.numSamples
    · rw [if_pos hp]
    · rw [if_neg hp]
      cases length with
      | none =>
        exfalso; apply hl
        refine ⟨by omega, by omega, by simp, ?_, by simp⟩
        intro l e
        subst e
        simp at n4 hp
        omega
      | some n =>
        have := hlen n rfl
        simp at n5
        simp only
        rw [i64_ok (by simp only [InI64, INT64_MIN]; omega)]
        simp only [Res.bind_ok, Res.pure_eq]
        congr 1
        rw [decide_eq_true_eq]
        apply Classical.byContradiction
        intro hno
        apply hl
        simp at n3
        refine ⟨by omega, by omega, by simp [n3], ?_, ?_⟩
        · intro l e; rw [n3] at e; cases e
        · intro k e; cases e; omega
  rw [hpast]
  exact ⟨_, rfl⟩

/-- C33, finding: a huge `length` is not rejected cleanly; with `first = 1` and `length = INT64_MAX` the check itself
overflows (undefined behaviour), for every clip with at least two samples. -/
theorem C33_audioTrim_overflow (clip : AClip α) (N : Nat) (sig : Signal α) (h : clip.Carries N sig) (h2 : 2 ≤ N) :
    audioTrimCreate clip (some 1) none (some INT64_MAX) = .ub := by
  have hcnt := h.count
  unfold audioTrimCreate
  simp only [Option.getD_some, Option.isSome_none, Option.isSome_some]
  rw [if_neg (by omega), if_neg (by omega), if_neg (by simp), if_neg (by simp), if_neg (by simp [INT64_MAX])]
  have : trimPastEnd 1 clip.ai.numSamples none (some INT64_MAX) = .ub := by
    unfold trimPastEnd
    rw [if_neg (by simp)]
    rfl
  rw [this]; rfl

/-! ## C35 -/

theorem copyRev_ok {nch : Nat} {dst src : Bufs α} {doff last n : Int} (h1 : 0 ≤ n) (h2 : 0 ≤ doff)
    (h4 : doff + n ≤ 3072) (h5 : n > 0 → 0 ≤ last - (n - 1) ∧ last < 3072) :
    ∃ b, copyRev nch dst doff src last n = .ok b ∧
      ∀ c i, b c i = if c < nch ∧ doff.toNat ≤ i ∧ i < doff.toNat + n.toNat
        then src c (last.toNat - (i - doff.toNat)) else dst c i := by
  unfold copyRev SAMPLES
  rw [if_neg (by omega)]
  exact ⟨_, rfl, fun _ _ => rfl⟩

set_option maxRecDepth 10000 in
theorem reverse_ready_ragged (clip : AClip α) (N q m : Nat) (sig : Signal α) (h : clip.Carries N sig)
    (hN : N = 3072 * q + m) (hm0 : 0 < m) (hm1 : m < 3072) (k : Nat) (hk : k ≤ q)
    (fetch : Nat → Int → Option (AFrame α)) (g g2 : AFrame α)
    (hg : fetch 0 ((q : Int) - k) = some g) (hgf : IsFrame clip.ai.format N sig (q - k) g)
    (hg2 : fetch 0 (max ((q : Int) - 1 - k) 0) = some g2) (hgf2 : k < q → IsFrame clip.ai.format N sig (q - 1 - k) g2) :
    ∃ r, (reverseFilter clip.ai).ready k fetch = .ok r ∧ IsFrame clip.ai.format N (Spec.reversed N sig) k r := by
  have hcnt := h.count
  have hnf := h.frames
  have hfc : frameCount N = q + 1 := by unfold frameCount; omega
  have hmod : clip.ai.numSamples.tmod 3072 = (m : Int) := by
    rw [hcnt, show ((3072 : Int)) = ((3072 : Nat) : Int) from rfl, ← Int.ofNat_tmod]; congr 1; omega
  have hS : SAMPLES = 3072 := rfl
  rw [hfc] at hnf
  have e1 : ((q + 1 : Nat) : Int) - 1 - k = (q : Int) - k := by omega
  have e2 : ((q + 1 : Nat) : Int) - 2 - k = (q : Int) - 1 - k := by omega
  have hl := hgf.len
  simp only [reverseFilter, hS, hmod, hnf, e1, e2, hg, hg2, deref, Res.bind_ok]
  clear hmod hnf hfc e1 e2 hg hg2
  generalize hdl : min (3072 : Int) (clip.ai.numSamples - (k : Int) * 3072) = dl
  have hdl' : dl = if k = q then (m : Int) else 3072 := by split <;> omega
  have hgl : g.len = if k = 0 then (m : Int) else 3072 := by rw [hl]; split <;> omega
  rw [newAudioFrame_ok (by rw [hdl']; split <;> omega)]
  simp only [Res.bind_ok]
  have hoff : (if g.len - (m : Int) = 3072 then (0 : Int) else g.len - (m : Int)) = g.len - (m : Int) := by
    rw [if_neg]; rw [hgl]; split <;> omega
  simp only [hoff]
  have hs1 : g.len - (g.len - (m : Int)) = (m : Int) := by omega
  have hl1 : g.len - 1 - (g.len - (m : Int)) = (m : Int) - 1 := by omega
  simp only [hs1, hl1]
  rw [if_neg (by rw [hgl, hdl']; split <;> split <;> omega)]
  obtain ⟨b, hb1, hb2⟩ := copyRev_ok (nch := clip.ai.format.numChannels) (dst := fun _ _ => none) (src := g.ch)
    (doff := 0) (last := (m : Int) - 1) (n := (m : Int)) (by omega) (by omega) (by omega) (by omega)
  rw [hb1]
  simp only [Res.bind_ok]
  by_cases hlast : k = q
  · rw [if_neg (by rw [hdl', if_pos hlast]; omega)]
    rw [if_pos hlast] at hdl'
    have hmin : min 3072 (N - k * 3072) = m := by omega
    refine ⟨_, rfl, rfl, by simp only; omega, ?_⟩
    intro c hc i hi
    rw [hmin] at hi
    simp only
    have : m ≤ min 3072 (N - (q - k) * 3072) := by omega
    rw [hb2, if_pos ⟨hc, by omega, by omega⟩, hgf.samples c hc _ (by omega)]
    unfold Spec.reversed
    congr 2; omega
  · rw [if_neg hlast] at hdl'
    have hgf2 := hgf2 (by omega)
    rw [if_pos (by omega)]
    have hg2l : g2.len = 3072 := by rw [hgf2.len]; omega
    rw [hg2l, hdl']
    obtain ⟨b', hb1', hb2'⟩ := copyRev_ok (nch := clip.ai.format.numChannels) (dst := b) (src := g2.ch)
      (doff := (m : Int)) (last := 3072 - 1) (n := 3072 - (m : Int)) (by omega) (by omega) (by omega) (by omega)
    rw [hb1']
    have hdz : dl = 3072 := hdl'
    have hmin : min 3072 (N - k * 3072) = 3072 := by omega
    have hmin2 : min 3072 (N - (q - 1 - k) * 3072) = 3072 := by omega
    have hmin3 : m ≤ min 3072 (N - (q - k) * 3072) := by omega
    refine ⟨_, rfl, rfl, by simp [hmin], ?_⟩
    intro c hc i hi
    rw [hmin] at hi
    simp only
    rw [hb2']
    have a1 : (m : Int).toNat = m := by omega
    have a2 : (3072 - (m : Int)).toNat = 3072 - m := by omega
    have a3 : ((3072 : Int) - 1).toNat = 3071 := by decide
    have a4 : (0 : Int).toNat = 0 := rfl
    have a5 : ((m : Int) - 1).toNat = m - 1 := by omega
    simp only [a1, a2, a3]
    by_cases hi2 : m ≤ i
    · rw [if_pos ⟨hc, hi2, by omega⟩, hgf2.samples c hc _ (by rw [hmin2]; omega)]
      unfold Spec.reversed
      congr 2; omega
    · rw [if_neg (by omega), hb2]
      simp only [a1, a4, a5]
      rw [if_pos ⟨hc, by omega, by omega⟩, hgf.samples c hc _ (by omega)]
      unfold Spec.reversed
      congr 2; omega

theorem reverse_ready_even (clip : AClip α) (N q : Nat) (sig : Signal α) (h : clip.Carries N sig)
    (hN : N = 3072 * (q + 1)) (k : Nat) (hk : k ≤ q)
    (fetch : Nat → Int → Option (AFrame α)) (g : AFrame α)
    (hg : fetch 0 ((q : Int) - k) = some g) (hgf : IsFrame clip.ai.format N sig (q - k) g) :
    ∃ r, (reverseFilter clip.ai).ready k fetch = .ok r ∧ IsFrame clip.ai.format N (Spec.reversed N sig) k r := by
  have hcnt := h.count
  have hnf := h.frames
  have hfc : frameCount N = q + 1 := by unfold frameCount; omega
  have hmod : clip.ai.numSamples.tmod 3072 = (0 : Int) := by
    rw [hcnt, show ((3072 : Int)) = ((3072 : Nat) : Int) from rfl, ← Int.ofNat_tmod]; omega
  have hS : SAMPLES = 3072 := rfl
  rw [hfc] at hnf
  have e1 : ((q + 1 : Nat) : Int) - 1 - k = (q : Int) - k := by omega
  have hgl : g.len = 3072 := by rw [hgf.len]; omega
  have hdl : min (3072 : Int) (clip.ai.numSamples - (k : Int) * 3072) = 3072 := by omega
  have hmin : min 3072 (N - k * 3072) = 3072 := by omega
  simp only [reverseFilter, hS, hmod, hnf, e1, hg, deref, Res.bind_ok, hdl]
  rw [newAudioFrame_ok (by omega)]
  simp only [Res.bind_ok, hgl]
  obtain ⟨b, hb1, hb2⟩ := copyRev_ok (nch := clip.ai.format.numChannels) (dst := fun _ _ => none) (src := g.ch)
    (doff := 0) (last := 3071) (n := 3072) (by omega) (by omega) (by omega) (by omega)
  refine ⟨⟨clip.ai.format, 3072, b⟩, by simp [hb1], rfl, by simp [hmin], ?_⟩
  intro c hc i hi
  rw [hmin] at hi
  have a1 : (3071 : Int).toNat = 3071 := by decide
  have a2 : (3072 : Int).toNat = 3072 := by decide
  have a4 : (0 : Int).toNat = 0 := rfl
  simp only
  rw [hb2]
  simp only [a1, a2, a4]
  rw [if_pos ⟨hc, by omega, by omega⟩, hgf.samples c hc _ (by omega)]
  unfold Spec.reversed
  congr 2; omega

/-- C35. Sample `p` of `AudioReverse` is sample `N - 1 - p` of the input, in every channel; the declared info is that of
the input. -/
theorem C35_audioReverse (clip : AClip α) (N : Nat) (sig : Signal α) (h : clip.Carries N sig) :
    ∃ out, audioReverseCreate clip = .ok out ∧ out.Carries N (Spec.reversed N sig) ∧ out.ai = clip.ai := by
  have hcnt := h.count
  have hnf := h.frames
  have hN := h.len_pos
  have hmod : clip.ai.numSamples.tmod 3072 = ((N % 3072 : Nat) : Int) := by
    rw [hcnt, show ((3072 : Int)) = ((3072 : Nat) : Int) from rfl, ← Int.ofNat_tmod]
  have hS : SAMPLES = 3072 := rfl
  have main := create_carries' (reverseFilter clip.ai) [clip] N (Spec.reversed N sig) h.info hcnt h.range (by
    intro k hk
    have hcar : ∀ x : Int, 0 ≤ x → (0 : Int) ≤ x ∧ ∃ c M s, [clip][0]? = some c ∧ AClip.Carries c M s :=
      fun x hx => ⟨hx, clip, N, sig, rfl, h⟩
    by_cases hm : N % 3072 = 0
    · obtain ⟨q, hq⟩ : ∃ q, N = 3072 * (q + 1) := ⟨N / 3072 - 1, by omega⟩
      have hfc : frameCount N = q + 1 := by unfold frameCount; omega
      refine ⟨[(0, (q : Int) - k)], ?_, ?_, ?_⟩
      · simp only [reverseFilter, hS, hmod, hnf, hfc, hm]
        rw [if_neg (by simp), show ((q + 1 : Nat) : Int) - 1 - k = (q : Int) - k by omega]
      · intro r hr
        simp at hr
        subst hr
        exact hcar _ (by omega)
      · intro fetch hf
        obtain ⟨g, hg, hgf⟩ := hf 0 ((q : Int) - k) (by simp) clip N sig rfl h
        rw [show min ((q : Int) - k).toNat (frameCount N - 1) = q - k by omega] at hgf
        exact reverse_ready_even clip N q sig h hq k (by omega) fetch g hg hgf
    · obtain ⟨q, m, hq, hm0, hm1⟩ : ∃ q m, N = 3072 * q + m ∧ 0 < m ∧ m < 3072 := ⟨N / 3072, N % 3072, by omega⟩
      have hfc : frameCount N = q + 1 := by unfold frameCount; omega
      refine ⟨[(0, (q : Int) - k), (0, max ((q : Int) - 1 - k) 0)], ?_, ?_, ?_⟩
      · simp only [reverseFilter, hS, hmod, hnf, hfc]
        rw [if_pos (by omega), show ((q + 1 : Nat) : Int) - 1 - k = (q : Int) - k by omega,
          show ((q + 1 : Nat) : Int) - 2 - k = (q : Int) - 1 - k by omega]
      · intro r hr
        simp at hr
        rcases hr with rfl | rfl
        · exact hcar _ (by omega)
        · exact hcar _ (by omega)
      · intro fetch hf
        obtain ⟨g, hg, hgf⟩ := hf 0 ((q : Int) - k) (by simp) clip N sig rfl h
        obtain ⟨g2, hg2, hgf2⟩ := hf 0 (max ((q : Int) - 1 - k) 0) (by simp) clip N sig rfl h
        rw [show min ((q : Int) - k).toNat (frameCount N - 1) = q - k by omega] at hgf
        rw [show min (max ((q : Int) - 1 - k) 0).toNat (frameCount N - 1) = q - 1 - k by omega] at hgf2
        exact reverse_ready_ragged clip N q m sig h hq hm0 hm1 k (by omega) fetch g g2 hg hgf hg2 (fun _ => hgf2))
  obtain ⟨out, h1, h2, h3⟩ := main
  refine ⟨out, h1, h2, ?_⟩
  rw [h3]
  simp only [reverseFilter, ← hnf]

/-- C35. Reversing twice gives back the input's samples. -/
theorem C35_audioReverse_twice (clip : AClip α) (N : Nat) (sig : Signal α) (h : clip.Carries N sig) :
    ∃ mid out, audioReverseCreate clip = .ok mid ∧ audioReverseCreate mid = .ok out ∧ out.Carries N sig ∧
      out.ai = clip.ai := by
  obtain ⟨mid, h1, h2, h3⟩ := C35_audioReverse clip N sig h
  obtain ⟨out, h4, h5, h6⟩ := C35_audioReverse mid N _ h2
  refine ⟨mid, out, h1, h4, h5.congr ?_, by rw [h6, h3]⟩
  intro ch p hp
  unfold Spec.reversed
  congr 1; omega

end VS.Audio
