import Verif.Audio.Lemmas

/-!
# C34: AudioLoop
-/

namespace VS.Audio

set_option maxRecDepth 10000

variable {α : Type}

/-- One round of the copy loop: it either finishes the frame or goes on at the next source frame. -/
theorem loop_step (clip : AClip α) (N T D k : Nat) (sig : Signal α) (h : clip.Carries N sig)
    (hD : D = min 3072 (T - k * 3072)) (rem q off o : Nat) (hrem : 0 < rem) (hoff : off < 3072)
    (hq : q * 3072 + off < N) (ho : o + rem = D) (hpos : (k * 3072 + o) % N = q * 3072 + off)
    (fetch : Nat → Int → Option (AFrame α)) (g : AFrame α) (hg : fetch 0 q = some g)
    (hgf : IsFrame clip.ai.format N sig q g) (dst : Option (AFrame α))
    (hdst : Filled clip.ai.format D (fun c i => Spec.looped N sig c (k * 3072 + i)) o dst) :
    (rem ≤ min (3072 - off) (N - (q * 3072 + off)) →
      ∃ r, loopCopyLoop clip.ai.format clip.ai.numFrames fetch q off rem dst o = .ok r ∧
        IsFrame clip.ai.format T (Spec.looped N sig) k r) ∧
    (min (3072 - off) (N - (q * 3072 + off)) < rem →
      ∃ dst', Filled clip.ai.format D (fun c i => Spec.looped N sig c (k * 3072 + i))
          (o + min (3072 - off) (N - (q * 3072 + off))) dst' ∧
        loopCopyLoop clip.ai.format clip.ai.numFrames fetch q off rem dst o =
          loopCopyLoop clip.ai.format clip.ai.numFrames fetch ((if q + 1 = frameCount N then 0 else q + 1 : Nat) : Int)
            ((0 : Nat) : Int) ((rem - min (3072 - off) (N - (q * 3072 + off)) : Nat) : Int) dst'
            ((o + min (3072 - off) (N - (q * 3072 + off)) : Nat) : Int)) := by
  have hnf := h.frames
  have hqf : q < frameCount N := lt_frameCount (by omega)
  have hN := h.len_pos
  obtain ⟨len, hlen⟩ : ∃ len, len = min (3072 - off) (N - (q * 3072 + off)) := ⟨_, rfl⟩
  rw [← hlen]
  have hlen0 : 0 < len := by omega
  have hgl : g.len - (off : Int) = len := by rw [hgf.len]; omega
  have hgs : ∀ ch, ch < clip.ai.format.numChannels → ∀ j, j < min len rem →
      g.ch ch (off + j) = some ((fun c i => Spec.looped N sig c (k * 3072 + i)) ch (o + j)) := by
    intro ch hch j hj
    rw [hgf.samples ch hch (off + j) (by omega)]
    simp only [Spec.looped]
    rw [show k * 3072 + (o + j) = (k * 3072 + o) + j by omega, ← Nat.mod_add_mod, hpos,
      Nat.mod_eq_of_lt (by omega), show q * 3072 + (off + j) = q * 3072 + off + j by omega]
  have hD3 : D ≤ 3072 := by omega
  constructor
  · intro hle
    obtain ⟨d, ch, hs1, hs2, hs3⟩ := fill_step (off := off) (n := rem) (src := g) hdst hD3 ho hrem (by omega)
      (by omega) (fun c hc j hjj => hgs c hc j (by omega))
    refine ⟨{ d with ch := ch }, ?_, hs3.1, ?_, ?_⟩
    · unfold loopCopyLoop
      simp only [hg, hgl]
      rw [dif_neg (by omega), hs1]
      simp only [Res.bind]
      rw [show min (len : Int) (rem : Int) = (rem : Int) by omega, hs2]
      simp only
      rw [if_neg (by omega)]
    · rw [hs3.2.1, hD]
    · intro c hc i hi
      exact hs3.2.2 c hc i (by omega)
  · intro hlt
    obtain ⟨d, ch, hs1, hs2, hs3⟩ := fill_step (off := off) (n := len) (src := g) hdst hD3 ho hrem (by omega)
      (by omega) (fun c hc j hjj => hgs c hc j (by omega))
    refine ⟨_, hs3, ?_⟩
    rw [loopCopyLoop]
    simp only [hg, hgl]
    rw [dif_neg (by omega), hs1]
    simp only [Res.bind]
    rw [show min (len : Int) (rem : Int) = (len : Int) by omega, hs2]
    simp only
    rw [if_pos (by omega), hnf,
      show (rem : Int) - (len : Int) = ((rem - len : Nat) : Int) by omega,
      show (o : Int) + (len : Int) = ((o + len : Nat) : Int) by omega]
    congr 1
    split <;> split <;> omega

/-- The position after a round. -/
theorem loop_next {N k q off o len : Nat} (hN : 0 < N) (hlen : len = min (3072 - off) (N - (q * 3072 + off)))
    (hoff : off < 3072) (hq : q * 3072 + off < N) (hpos : (k * 3072 + o) % N = q * 3072 + off) {q' : Nat}
    (hq' : q' = if q + 1 = frameCount N then 0 else q + 1) :
    (k * 3072 + (o + len)) % N = q' * 3072 + 0 ∧ q' * 3072 + 0 < N := by
  have hfc : frameCount N = (N + 3071) / 3072 := rfl
  rw [show k * 3072 + (o + len) = (k * 3072 + o) + len by omega, ← Nat.mod_add_mod, hpos]
  by_cases hw : q + 1 = frameCount N
  · rw [if_pos hw] at hq'
    have : q * 3072 + off + len = N := by omega
    rw [this, hq', Nat.mod_self]
    omega
  · rw [if_neg hw] at hq'
    have : q < frameCount N := lt_frameCount (by omega)
    have : q * 3072 + off + len = q' * 3072 := by omega
    rw [this, Nat.mod_eq_of_lt (by omega)]
    omega

theorem loop_all (clip : AClip α) (N T D k : Nat) (sig : Signal α) (h : clip.Carries N sig)
    (hD : D = min 3072 (T - k * 3072)) (fetch : Nat → Int → Option (AFrame α))
    (hall : ∀ q : Nat, q < frameCount N → ∃ g, fetch 0 q = some g ∧ IsFrame clip.ai.format N sig q g) :
    ∀ (rem q off o : Nat), 0 < rem → off < 3072 → q * 3072 + off < N → o + rem = D →
      (k * 3072 + o) % N = q * 3072 + off →
      ∀ dst, Filled clip.ai.format D (fun c i => Spec.looped N sig c (k * 3072 + i)) o dst →
        ∃ r, loopCopyLoop clip.ai.format clip.ai.numFrames fetch q off rem dst o = .ok r ∧
          IsFrame clip.ai.format T (Spec.looped N sig) k r := by
  intro rem
  induction rem using Nat.strongRecOn with
  | ind rem ih =>
    intro q off o hrem hoff hq ho hpos dst hdst
    obtain ⟨g, hg, hgf⟩ := hall q (lt_frameCount (by omega))
    obtain ⟨s1, s2⟩ := loop_step clip N T D k sig h hD rem q off o hrem hoff hq ho hpos fetch g hg hgf dst hdst
    by_cases hle : rem ≤ min (3072 - off) (N - (q * 3072 + off))
    · exact s1 hle
    · obtain ⟨dst', hd, he⟩ := s2 (by omega)
      rw [he]
      obtain ⟨n1, n2⟩ := loop_next (by omega) rfl hoff hq hpos rfl
      apply ih _ (by omega) _ 0 _ (by omega) (by omega) n2 (by omega) n1 dst' hd

/-- Frames between `q0` and `q`, going round. -/
def Visited (q0 q x : Nat) : Prop := if q0 ≤ q then q0 ≤ x ∧ x < q else q0 ≤ x ∨ x < q

theorem loop_req (clip : AClip α) (N T D k : Nat) (sig : Signal α) (h : clip.Carries N sig)
    (hD : D = min 3072 (T - k * 3072)) (q0 : Nat) (hq0 : q0 < frameCount N) :
    ∀ (rem q off o : Nat), 0 < rem → off < 3072 → q * 3072 + off < N → o + rem = D →
      (k * 3072 + o) % N = q * 3072 + off →
      ∃ reqs, loopReqLoop clip.ai.numSamples clip.ai.numFrames q0 q off ((q * 3072 + off : Nat) : Int) rem = .ok reqs ∧
        (∀ r ∈ reqs, ∃ x : Nat, r = (0, (x : Int)) ∧ x < frameCount N) ∧
        ∀ fetch : Nat → Int → Option (AFrame α),
          (∀ x : Nat, (0, (x : Int)) ∈ reqs ∨ (x < frameCount N ∧ Visited q0 q x) →
            ∃ g, fetch 0 x = some g ∧ IsFrame clip.ai.format N sig x g) →
          ∀ dst, Filled clip.ai.format D (fun c i => Spec.looped N sig c (k * 3072 + i)) o dst →
            ∃ r, loopCopyLoop clip.ai.format clip.ai.numFrames fetch q off rem dst o = .ok r ∧
              IsFrame clip.ai.format T (Spec.looped N sig) k r := by
  have hcs := h.count
  have hnf := h.frames
  intro rem
  induction rem using Nat.strongRecOn with
  | ind rem ih =>
    intro q off o hrem hoff hq ho hpos
    have hqf : q < frameCount N := lt_frameCount (by omega)
    obtain ⟨len, hlen⟩ : ∃ len, len = min (3072 - off) (N - (q * 3072 + off)) := ⟨_, rfl⟩
    have hrs : min (SAMPLES - (off : Int)) (clip.ai.numSamples - ((q * 3072 + off : Nat) : Int)) = (len : Int) := by
      rw [hcs]; unfold SAMPLES; omega
    obtain ⟨q', hq'⟩ : ∃ q', q' = if q + 1 = frameCount N then 0 else q + 1 := ⟨_, rfl⟩
    have hq'i : (if decide ((q : Int) + 1 > clip.ai.numFrames - 1) = true then (0 : Int) else (q : Int) + 1) = (q' : Int) := by
      rw [hnf, hq']
      by_cases e : q + 1 = frameCount N
      · rw [if_pos e, if_pos (by simp; omega)]; rfl
      · rw [if_neg e, if_neg (by simp; omega)]; omega
    obtain ⟨n1, n2⟩ := loop_next (by omega) hlen hoff hq hpos hq'
    have hstart : (if decide ((q : Int) + 1 > clip.ai.numFrames - 1) = true then (0 : Int)
        else ((q * 3072 + off : Nat) : Int) + (len : Int)) = ((q' * 3072 + 0 : Nat) : Int) := by
      rw [hnf, hq']
      have hfc : frameCount N = (N + 3071) / 3072 := rfl
      by_cases e : q + 1 = frameCount N
      · rw [if_pos e, if_pos (by simp; omega)]; rfl
      · rw [if_neg e, if_neg (by simp; omega)]; omega
    by_cases hgo : len < rem ∧ q' ≠ q0
    · obtain ⟨reqs, hr1, hr2, hr3⟩ := ih (rem - len) (by omega) q' 0 (o + len) (by omega) (by omega) n2 (by omega) n1
      refine ⟨(0, (q : Int)) :: reqs, ?_, ?_, ?_⟩
      · unfold loopReqLoop
        simp only [hrs, hq'i, hstart]
        rw [dif_neg (by omega), if_pos (by omega), show (rem : Int) - (len : Int) = ((rem - len : Nat) : Int) by omega]
        rw [show ((0 : Nat) : Int) = 0 from rfl] at hr1
        rw [hr1]; rfl
      · intro r hr
        rcases List.mem_cons.1 hr with rfl | hr
        · exact ⟨q, rfl, hqf⟩
        · exact hr2 r hr
      · intro fetch hf dst hdst
        obtain ⟨g, hg, hgf⟩ := hf q (Or.inl (by simp))
        obtain ⟨-, s2⟩ := loop_step clip N T D k sig h hD rem q off o hrem hoff hq ho hpos fetch g hg hgf dst hdst
        rw [← hlen] at s2
        obtain ⟨dst', hd, he⟩ := s2 hgo.1
        rw [he, ← hq']
        apply hr3 fetch _ dst' hd
        intro x hx
        rcases hx with hx | ⟨hx1, hx2⟩
        · exact hf x (Or.inl (by simp [hx]))
        · by_cases e : x = q
          · subst e; exact ⟨g, hg, hgf⟩
          · apply hf x (Or.inr ⟨hx1, ?_⟩)
            unfold Visited at hx2 ⊢
            split at hx2 <;> split <;> split at hq' <;> omega
    · refine ⟨[(0, (q : Int))], ?_, ?_, ?_⟩
      · unfold loopReqLoop
        simp only [hrs, hq'i, hstart]
        rw [dif_neg (by omega), if_neg (by omega)]
      · intro r hr
        simp at hr
        exact ⟨q, hr, hqf⟩
      · intro fetch hf dst hdst
        by_cases hle : rem ≤ len
        · obtain ⟨g, hg, hgf⟩ := hf q (Or.inl (by simp))
          obtain ⟨s1, -⟩ := loop_step clip N T D k sig h hD rem q off o hrem hoff hq ho hpos fetch g hg hgf dst hdst
          exact s1 (by omega)
        · apply loop_all clip N T D k sig h hD fetch _ rem q off o hrem hoff hq ho hpos dst hdst
          intro x hx
          by_cases e : x = q
          · subst e; exact hf x (Or.inl (by simp))
          · apply hf x (Or.inr ⟨hx, ?_⟩)
            have : q' = q0 := by omega
            unfold Visited
            split <;> split at hq' <;> omega

theorem loop_filter_carries (clip : AClip α) (N T : Nat) (sig : Signal α) (h : clip.Carries N sig) (hT : 1 ≤ T)
    (hmax : (T : Int) ≤ MAX_SAMPLES) :
    ∃ out, createAudioFilter (loopFilter { clip.ai with numSamples := (T : Int) } clip.ai.numSamples clip.ai.numFrames)
        [clip] = .ok out ∧ out.Carries T (Spec.looped N sig) ∧
      out.ai = { clip.ai with numSamples := (T : Int), numFrames := frameCount T } := by
  have hN := h.len_pos
  have hcs := h.count
  apply create_carries' (loopFilter { clip.ai with numSamples := (T : Int) } clip.ai.numSamples clip.ai.numFrames)
    [clip] T (Spec.looped N sig) (valid_withSamples h.info (by omega)) rfl hmax
  intro k hk
  have hlt := lt_of_lt_frameCount hk
  have hs0 : ¬ clip.ai.numSamples = 0 := by omega
  obtain ⟨X, hX⟩ : ∃ X, X = (k * 3072) % N := ⟨_, rfl⟩
  have hXN : X < N := by rw [hX]; exact Nat.mod_lt _ (by omega)
  have e0 : ((k : Int) * SAMPLES).tmod clip.ai.numSamples = (X : Int) := by
    rw [hcs, hX]; exact (Int.ofNat_tmod (k * 3072) N).symm
  have e1 : (X : Int).tdiv SAMPLES = ((X / 3072 : Nat) : Int) := (Int.ofNat_tdiv X 3072).symm
  have e2 : (X : Int).tmod SAMPLES = ((X % 3072 : Nat) : Int) := (Int.ofNat_tmod X 3072).symm
  have hXq := Nat.div_add_mod X 3072
  have hXm := Nat.mod_lt X (y := 3072) (by decide)
  obtain ⟨D, hD⟩ : ∃ D, D = min 3072 (T - k * 3072) := ⟨_, rfl⟩
  have hDi : min SAMPLES ((T : Int) - (k : Int) * SAMPLES) = (D : Int) := by unfold SAMPLES; omega
  have hXe : X / 3072 * 3072 + X % 3072 = X := by omega
  obtain ⟨reqs, h1, h2, h3⟩ := loop_req clip N T D k sig h hD (X / 3072) (lt_frameCount (by omega)) D (X / 3072) (X % 3072) 0
    (by omega) hXm (by omega) (by omega) (by rw [Nat.add_zero, ← hX, hXe])
  rw [hXe] at h1
  refine ⟨reqs, ?_, ?_, ?_⟩
  · simp only [loopFilter, e0, e1, e2, hDi]
    rw [if_neg hs0]
    exact h1
  · intro r hr
    obtain ⟨x, rfl, hx⟩ := h2 r hr
    exact ⟨by simp only; omega, clip, N, sig, rfl, h⟩
  · intro fetch hf
    obtain ⟨r, hr1, hr2⟩ := h3 fetch (by
      intro x hx
      rcases hx with hx | ⟨-, hx⟩
      · obtain ⟨x', he, hx'⟩ := h2 _ hx
        have : x = x' := by simp at he; omega
        subst this
        obtain ⟨g, hg, hgf⟩ := hf 0 x hx clip N sig rfl h
        rw [show min ((x : Int)).toNat (frameCount N - 1) = x by omega] at hgf
        exact ⟨g, hg, hgf⟩
      · unfold Visited at hx
        rw [if_pos (by omega)] at hx
        omega) none rfl
    refine ⟨r, ?_, hr2⟩
    simp only [loopFilter, e0, e1, e2, hDi]
    rw [if_neg hs0]
    exact hr1

/-! ## C34, AudioLoop -/

namespace Spec

/-- Length of a clip of `N` samples played `times` times; 0 stands for "as often as possible". -/
def loopCount (N : Nat) (times : Int) : Int := if times = 0 then MAX_SAMPLES else N * times

end Spec

/-- C34. `AudioLoop` repeats the samples of its input without a gap, `times` times (0 or absent: up to the largest
possible length). -/
theorem C34_audioLoop (clip : AClip α) (N : Nat) (sig : Signal α) (h : clip.Carries N sig) (times : Option Int)
    (ht : 0 ≤ times.getD 0) (hmax : Spec.loopCount N (times.getD 0) ≤ MAX_SAMPLES) :
    ∃ out, audioLoopCreate clip times = .ok out ∧
      out.Carries (Spec.loopCount N (times.getD 0)).toNat (Spec.looped N sig) ∧
      out.ai.format = clip.ai.format ∧ out.ai.sampleRate = clip.ai.sampleRate := by
  have hN := h.len_pos
  have hcs := h.count
  obtain ⟨t, ht'⟩ : ∃ t : Nat, times.getD 0 = (t : Int) := ⟨(times.getD 0).toNat, by omega⟩
  rw [ht'] at hmax ⊢
  unfold audioLoopCreate
  simp only [ht']
  rw [if_neg (by omega)]
  by_cases h1 : t = 1
  · subst h1
    rw [if_pos (by omega)]
    refine ⟨clip, rfl, ?_, rfl, rfl⟩
    have : (Spec.loopCount N ((1 : Nat) : Int)).toNat = N := by simp [Spec.loopCount]
    rw [this]
    apply h.congr
    intro c p hp
    simp [Spec.looped, Nat.mod_eq_of_lt hp]
  · rw [if_neg (by omega)]
    by_cases h0 : t = 0
    · subst h0
      rw [if_neg (by omega)]
      obtain ⟨out, o1, o2, o3⟩ := loop_filter_carries clip N MAX_SAMPLES.toNat sig h (by decide) (by decide)
      exact ⟨out, o1, o2, by rw [o3], by rw [o3]⟩
    · have e : Spec.loopCount N (t : Int) = ((N * t : Nat) : Int) := by
        unfold Spec.loopCount
        rw [if_neg (by omega)]; simp
      rw [e] at hmax ⊢
      have hp : 1 ≤ N * t := Nat.mul_pos (by omega) (by omega)
      have hmax' : ((N * t : Nat) : Int) ≤ 2147483647 * 3072 := hmax
      have hle : (N : Int) ≤ MAX_SAMPLES.tdiv t := by
        have hm : MAX_SAMPLES.tdiv (t : Int) = ((6597069763584 / t : Nat) : Int) := (Int.ofNat_tdiv 6597069763584 t).symm
        rw [hm]
        have : N ≤ 6597069763584 / t := by
          rw [Nat.le_div_iff_mul_le (by omega)]; omega
        omega
      rw [if_pos (by omega), if_neg (by omega), hcs, show (N : Int) * (t : Int) = ((N * t : Nat) : Int) by simp,
        i64_ok (by simp only [InI64, INT64_MIN, INT64_MAX]; omega)]
      simp only [Res.bind_ok]
      obtain ⟨out, o1, o2, o3⟩ := loop_filter_carries clip N (N * t) sig h hp hmax
      rw [hcs] at o1
      refine ⟨out, o1, ?_, by rw [o3], by rw [o3]⟩
      rw [Int.toNat_natCast]; exact o2

/-- C34, rejection: a negative count or a result longer than a node may be. -/
theorem C34_audioLoop_reject (clip : AClip α) (N : Nat) (sig : Signal α) (h : clip.Carries N sig) (times : Option Int)
    (hbad : times.getD 0 < 0 ∨ Spec.loopCount N (times.getD 0) > MAX_SAMPLES) :
    ∃ msg, audioLoopCreate clip times = .err msg := by
  have hN := h.len_pos
  have hcs := h.count
  unfold audioLoopCreate
  simp only
  split
  · exact ⟨_, rfl⟩
  · rename_i hneg
    have hbad := hbad.resolve_left hneg
    obtain ⟨t, ht'⟩ : ∃ t : Nat, times.getD 0 = (t : Int) := ⟨(times.getD 0).toNat, by omega⟩
    rw [ht'] at hbad ⊢
    have ht0 : t ≠ 0 := by
      intro e; subst e; simp [Spec.loopCount] at hbad
    have ht1 : t ≠ 1 := by
      intro e; subst e; simp [Spec.loopCount] at hbad
      have := h.range
      omega
    have e : Spec.loopCount N (t : Int) = ((N * t : Nat) : Int) := by
      unfold Spec.loopCount
      rw [if_neg (by omega)]; simp
    rw [e] at hbad
    have hbad' : ((N * t : Nat) : Int) > 2147483647 * 3072 := hbad
    have hm : MAX_SAMPLES.tdiv (t : Int) = ((6597069763584 / t : Nat) : Int) := (Int.ofNat_tdiv 6597069763584 t).symm
    have : ¬ N ≤ 6597069763584 / t := by
      rw [Nat.le_div_iff_mul_le (by omega)]; omega
    rw [if_neg (by omega), if_pos (by omega), if_pos (by omega)]
    exact ⟨_, rfl⟩

end VS.Audio
