import Verif.Audio.Spec

/-! Helper lemmas for the audio filters. -/

namespace VS.Audio

variable {α : Type}

theorem bind_eq {β γ : Type} (x : Res β) (f : β → Res γ) : x.bind f = x >>= f := rfl

theorem frameCount_pos {N : Nat} (h : 1 ≤ N) : 1 ≤ frameCount N := by unfold frameCount; omega

theorem lt_of_lt_frameCount {N k : Nat} (h : k < frameCount N) : k * 3072 < N := by unfold frameCount at h; omega

theorem lt_frameCount {N k : Nat} (h : k * 3072 < N) : k < frameCount N := by unfold frameCount; omega

theorem expected_eq {ai : AudioInfo} {N k : Nat} (h1 : ai.numSamples = N) (h2 : ai.numFrames = frameCount N)
    (hk : k < frameCount N) : expectedSamples ai k = (min 3072 (N - k * 3072) : Nat) := by
  unfold expectedSamples SAMPLES
  rw [h1, h2, show (3072 : Int) = ((3072 : Nat) : Int) from rfl,
    show ((N : Int).tmod ((3072 : Nat) : Int)) = ((N % 3072 : Nat) : Int) from rfl]
  have := lt_of_lt_frameCount hk
  unfold frameCount at *
  split
  · omega
  · split <;> omega

theorem AClip.Carries.len_pos {c : AClip α} {N : Nat} {sig : Signal α} (h : c.Carries N sig) : 1 ≤ N := by
  have := h.info
  have hc := h.count
  unfold isValidAudioInfo at this
  split at this
  · simp at this
  · split at this
    · simp at this
    · omega

theorem AClip.Carries.fcount {c : AClip α} {N : Nat} {sig : Signal α} (h : c.Carries N sig) : (frameCount N : Int) ≤ INT_MAX := by
  have := h.range
  unfold MAX_SAMPLES SAMPLES INT_MAX at *
  unfold frameCount
  omega

/-- Only the number of samples changes: the info stays valid. -/
theorem valid_withSamples {ai : AudioInfo} (h : isValidAudioInfo ai = true) {n m : Int} (hn : 1 ≤ n) :
    isValidAudioInfo { ai with numSamples := n, numFrames := m } = true := by
  unfold isValidAudioInfo at *
  by_cases hf : (!isValidAudioFormat ai.format) = true
  · rw [if_pos hf] at h; simp at h
  · rw [if_neg hf] at h
    rw [if_neg hf]
    by_cases h2 : ai.numSamples < 1 ∨ ai.sampleRate < 1
    · rw [if_pos h2] at h; simp at h
    · rw [if_neg (by simp only; omega)]

/-! ### Requests -/

theorem serve_spec (clips : List (AClip α)) (reqs : List (Nat × Int))
    (h : ∀ r ∈ reqs, ∃ c N sig, clips[r.1]? = some c ∧ AClip.Carries c N sig ∧ 0 ≤ r.2) :
    ∃ avail, serve clips reqs = .ok avail ∧
      (∀ e ∈ avail, ∃ c, clips[e.1.1]? = some c ∧ c.frame e.1.2.toNat = .ok e.2) ∧
      (∀ r ∈ reqs, ∀ c, clips[r.1]? = some c → ∃ f, ((r.1, clampReq c.ai.numFrames r.2), f) ∈ avail) := by
  induction reqs with
  | nil => exact ⟨[], rfl, by simp, by simp⟩
  | cons r rest ih =>
    obtain ⟨i, n⟩ := r
    obtain ⟨avail, h1, h2, h3⟩ := ih (fun r hr => h r (by simp [hr]))
    obtain ⟨c, N, sig, hc, hcar, hn⟩ := h (i, n) (by simp)
    simp only at hc hn
    have hpos := frameCount_pos hcar.len_pos
    have hk : 0 ≤ clampReq c.ai.numFrames n := by
      unfold clampReq; rw [hcar.frames]; split <;> omega
    have hlt : (clampReq c.ai.numFrames n).toNat < frameCount N := by
      unfold clampReq; rw [hcar.frames]; split <;> omega
    obtain ⟨f, hf, -⟩ := hcar.content _ hlt
    refine ⟨((i, clampReq c.ai.numFrames n), f) :: avail, ?_, ?_, ?_⟩
    · unfold serve
      simp only [hc]
      rw [if_neg (by omega), hf, h1]; rfl
    · intro e he
      rcases List.mem_cons.1 he with rfl | he
      · exact ⟨c, hc, hf⟩
      · exact h2 e he
    · intro r hr c' hc'
      rcases List.mem_cons.1 hr with rfl | hr
      · simp only at hc'
        rw [hc] at hc'
        cases hc'
        exact ⟨f, by simp⟩
      · obtain ⟨g, hg⟩ := h3 r hr c' hc'
        exact ⟨g, by simp [hg]⟩

theorem lookup_of_mem {A B : Type} [BEq A] [LawfulBEq A] {l : List (A × B)} {a : A} {b : B} (h : (a, b) ∈ l) :
    ∃ b', l.lookup a = some b' ∧ (a, b') ∈ l := by
  induction l with
  | nil => simp at h
  | cons x xs ih =>
    obtain ⟨a', b''⟩ := x
    by_cases e : a = a'
    · subst e
      exact ⟨b'', by simp [List.lookup], by simp⟩
    · rcases List.mem_cons.1 h with h | h
      · cases h; exact absurd rfl e
      · obtain ⟨b', h1, h2⟩ := ih h
        refine ⟨b', ?_, by simp [h2]⟩
        rw [List.lookup_cons]
        have : (a == a') = false := by simpa using e
        rw [this]; exact h1

/-- A requested frame (in range) is found and is the right one. -/
theorem fetch_spec {clips : List (AClip α)} {reqs : List (Nat × Int)} {avail : List ((Nat × Int) × AFrame α)}
    (h2 : ∀ e ∈ avail, ∃ c, clips[e.1.1]? = some c ∧ c.frame e.1.2.toNat = .ok e.2)
    (h3 : ∀ r ∈ reqs, ∀ c, clips[r.1]? = some c → ∃ f, ((r.1, clampReq c.ai.numFrames r.2), f) ∈ avail)
    {i : Nat} {k : Int} (hr : (i, k) ∈ reqs) {c : AClip α} {N : Nat} {sig : Signal α} (hc : clips[i]? = some c)
    (hcar : AClip.Carries c N sig) (hk : 0 ≤ k) :
    ∃ f, fetchFrom clips avail i k = some f ∧ IsFrame c.ai.format N sig (min k.toNat (frameCount N - 1)) f := by
  obtain ⟨f, hf⟩ := h3 (i, k) hr c hc
  obtain ⟨f', h1, h4⟩ := lookup_of_mem hf
  have hpos := frameCount_pos hcar.len_pos
  have e : clampReq c.ai.numFrames k = ((min k.toNat (frameCount N - 1) : Nat) : Int) := by
    unfold clampReq; rw [hcar.frames]; split <;> omega
  simp only at h1 h4
  refine ⟨f', by simp only [fetchFrom, hc, h1], ?_⟩
  obtain ⟨c', hc', hfr⟩ := h2 _ h4
  simp only at hc' hfr
  rw [hc] at hc'
  cases hc'
  rw [e, Int.toNat_natCast] at hfr
  obtain ⟨g, hg1, hg2⟩ := hcar.content (min k.toNat (frameCount N - 1)) (by omega)
  rw [hfr] at hg1
  cases hg1
  exact hg2

/-- `createAudioFilter` succeeds and the node carries `sig` if each frame comes out right. -/
theorem create_carries (f : AFilter α) (clips : List (AClip α)) (N : Nat) (sig : Signal α)
    (hv : isValidAudioInfo f.ai = true) (hN : f.ai.numSamples = N) (hmax : (N : Int) ≤ MAX_SAMPLES)
    (h : ∀ k, k < frameCount N → ∃ reqs avail r, f.initial k = .ok reqs ∧ serve clips reqs = .ok avail ∧
      f.ready k (fetchFrom clips avail) = .ok r ∧ IsFrame f.ai.format N sig k r) :
    ∃ out, createAudioFilter f clips = .ok out ∧ out.Carries N sig ∧
      out.ai = { f.ai with numFrames := frameCount N } := by
  have hnf : (f.ai.numSamples + SAMPLES - 1).tdiv SAMPLES = (frameCount N : Int) := by
    rw [hN]
    unfold SAMPLES frameCount
    rw [Int.tdiv_eq_ediv_of_nonneg (by omega)]
    omega
  have hpos : 1 ≤ f.ai.numSamples := by
    unfold isValidAudioInfo at hv
    split at hv
    · simp at hv
    · split at hv
      · simp at hv
      · omega
  refine ⟨⟨{ f.ai with numFrames := frameCount N }, f.run { f.ai with numFrames := frameCount N } clips⟩, ?_, ?_, rfl⟩
  · unfold createAudioFilter
    simp only [hv, Bool.not_true, Bool.false_eq_true, if_false]
    rw [if_neg (by omega), hnf]
  · refine ⟨valid_withSamples hv hpos, hN, hmax, rfl, ?_⟩
    intro k hk
    obtain ⟨reqs, avail, r, h1, h2, h3, h4⟩ := h k hk
    refine ⟨r, ?_, h4⟩
    simp only [AFilter.run, h1, h2, h3, Res.bind_ok]
    unfold checkFrame
    rw [if_neg (by rw [h4.format]; simp), if_neg]
    rw [expected_eq (ai := { f.ai with numFrames := frameCount N }) (N := N) hN rfl hk, h4.len]; simp

/-- The usual way to use `create_carries`: requests are legal, and `ready` is right for any `fetch` that finds the
requested frames. -/
theorem create_carries' (f : AFilter α) (clips : List (AClip α)) (N : Nat) (sig : Signal α)
    (hv : isValidAudioInfo f.ai = true) (hN : f.ai.numSamples = N) (hmax : (N : Int) ≤ MAX_SAMPLES)
    (h : ∀ k, k < frameCount N → ∃ reqs, f.initial k = .ok reqs ∧
      (∀ r ∈ reqs, 0 ≤ r.2 ∧ ∃ c M s, clips[r.1]? = some c ∧ AClip.Carries c M s) ∧
      ∀ fetch : Nat → Int → Option (AFrame α),
        (∀ i k', (i, k') ∈ reqs → ∀ c M s, clips[i]? = some c → AClip.Carries c M s →
          ∃ g, fetch i k' = some g ∧ IsFrame c.ai.format M s (min k'.toNat (frameCount M - 1)) g) →
        ∃ r, f.ready k fetch = .ok r ∧ IsFrame f.ai.format N sig k r) :
    ∃ out, createAudioFilter f clips = .ok out ∧ out.Carries N sig ∧
      out.ai = { f.ai with numFrames := frameCount N } := by
  apply create_carries f clips N sig hv hN hmax
  intro k hk
  obtain ⟨reqs, h1, h2, h3⟩ := h k hk
  obtain ⟨avail, hs1, hs2, hs3⟩ := serve_spec clips reqs (by
    intro r hr
    obtain ⟨a, c, M, s, b, d⟩ := h2 r hr
    exact ⟨c, M, s, b, d, a⟩)
  obtain ⟨r, hr1, hr2⟩ := h3 (fetchFrom clips avail) (by
    intro i k' hmem c M s hc hcar
    exact fetch_spec hs2 hs3 hmem hc hcar (h2 _ hmem).1)
  exact ⟨reqs, avail, r, h1, hs1, hr1, hr2⟩

/-- Two signals that agree on the first `N` samples are carried by the same clips. -/
theorem AClip.Carries.congr {c : AClip α} {N : Nat} {s t : Signal α} (h : c.Carries N s)
    (e : ∀ ch p, p < N → s ch p = t ch p) : c.Carries N t := by
  refine ⟨h.info, h.count, h.range, h.frames, ?_⟩
  intro k hk
  obtain ⟨f, h1, h2, h3, h4⟩ := h.content k hk
  refine ⟨f, h1, h2, h3, ?_⟩
  intro ch hch i hi
  rw [h4 ch hch i hi, e]
  omega

/-! ### Copies -/

theorem copyAll_ok {nch : Nat} {dst src : Bufs α} {doff soff n : Int} (h1 : 0 ≤ n) (h2 : 0 ≤ doff) (h3 : 0 ≤ soff)
    (h4 : doff + n ≤ 3072) (h5 : soff + n ≤ 3072) :
    ∃ b, copyAll nch dst doff src soff n = .ok b ∧
      ∀ c i, b c i = if c < nch ∧ doff.toNat ≤ i ∧ i < doff.toNat + n.toNat
        then src c (i - doff.toNat + soff.toNat) else dst c i := by
  unfold copyAll SAMPLES
  rw [if_neg (by omega)]
  exact ⟨_, rfl, fun _ _ => rfl⟩

theorem newAudioFrame_ok {f : AudioFormat} {n : Int} (h : 1 ≤ n) :
    (newAudioFrame f n : Res (AFrame α)) = .ok ⟨f, n, fun _ _ => none⟩ := by
  unfold newAudioFrame; rw [if_neg (by omega)]

/-- The output frame under construction: nothing yet, or the right frame filled up to position `o`. -/
def Filled (fmt : AudioFormat) (D : Nat) (tgt : Nat → Nat → α) (o : Nat) : Option (AFrame α) → Prop
  | none => o = 0
  | some d => d.format = fmt ∧ d.len = D ∧ ∀ c, c < fmt.numChannels → ∀ i, i < o → d.ch c i = some (tgt c i)

theorem fill_step {fmt : AudioFormat} {D : Nat} {tgt : Nat → Nat → α} {o rem n off : Nat} {dst : Option (AFrame α)}
    {src : AFrame α} (h : Filled fmt D tgt o dst) (hD : D ≤ 3072) (ho : o + rem = D) (hrem : 0 < rem) (hn : n ≤ rem)
    (hoff : off + n ≤ 3072)
    (hsrc : ∀ c, c < fmt.numChannels → ∀ j, j < n → src.ch c (off + j) = some (tgt c (o + j))) :
    ∃ d ch, ensureFrame dst fmt rem = .ok d ∧ copyAll fmt.numChannels d.ch o src.ch off n = .ok ch ∧
      Filled fmt D tgt (o + n) (some { d with ch := ch }) := by
  have key : ∃ d, ensureFrame dst fmt rem = .ok d ∧ d.format = fmt ∧ d.len = D ∧
      ∀ c, c < fmt.numChannels → ∀ i, i < o → d.ch c i = some (tgt c i) := by
    cases dst with
    | some d => exact ⟨d, rfl, h.1, h.2.1, h.2.2⟩
    | none =>
      have h0 : o = 0 := h
      refine ⟨⟨fmt, rem, fun _ _ => none⟩, newAudioFrame_ok (by omega), rfl, by simp only; omega, ?_⟩
      intro c hc i hi
      omega
  obtain ⟨d, h1, h2, h3, h4⟩ := key
  obtain ⟨b, hb1, hb2⟩ := copyAll_ok (nch := fmt.numChannels) (dst := d.ch) (src := src.ch) (doff := (o : Int))
    (soff := (off : Int)) (n := (n : Int)) (by omega) (by omega) (by omega) (by omega) (by omega)
  refine ⟨d, b, h1, hb1, h2, h3, ?_⟩
  intro c hc i hi
  simp only
  rw [hb2]
  simp only [Int.toNat_natCast]
  by_cases hio : o ≤ i
  · rw [if_pos ⟨hc, hio, hi⟩, show i - o + off = off + (i - o) by omega, hsrc c hc (i - o) (by omega),
      show o + (i - o) = i by omega]
  · rw [if_neg (by omega)]
    exact h4 c hc i (by omega)

/-- Clips with the same audio info have the same number of channels. -/
theorem numChannels_of_same {a b : AudioInfo} (ha : isValidAudioInfo a = true) (hb : isValidAudioInfo b = true)
    (h : isSameAudioInfo a b = true) : a.format.numChannels = b.format.numChannels := by
  have key : ∀ x : AudioInfo, isValidAudioInfo x = true → x.format.numChannels = popcount x.format.channelLayout := by
    intro x hx
    unfold isValidAudioInfo at hx
    split at hx
    · cases hx
    rename_i hx'
    unfold isValidAudioFormat at hx'
    split at hx'
    · simp at hx'
    split at hx'
    · simp at hx'
    rename_i h
    simpa using h
  rw [key a ha, key b hb]
  simp [isSameAudioInfo] at h
  rw [h.2.2]

end VS.Audio
