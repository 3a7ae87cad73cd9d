import Verif.Gain.Lemmas

/-!
# The sample loop and the frames of a filter that clips
-/

namespace VS.Gain

set_option maxRecDepth 10000

open VS VS.Audio

/-- The value of every cell and whether it is clipped. -/
structure Cells (f : Nat → Nat → Res (Int × Bool)) (todo : List (Nat × Nat)) (val : Nat → Nat → Int) (clip : Nat → Nat → Bool) : Prop where
  eq : ∀ c i, (c, i) ∈ todo → f c i = .ok (val c i, clip c i)

theorem loop_ok (oe : Bool) (n length : Int) (f : Nat → Nat → Res (Int × Bool)) (chan : Nat → Nat) (val : Nat → Nat → Int)
    (clip : Nat → Nat → Bool) : ∀ (todo : List (Nat × Nat)) (st : Loop), Cells f todo val clip →
    (∀ c i d j, (c, i) ∈ todo → (d, j) ∈ todo → chan c = chan d → c = d) →
    ((∃ p, interval n length = .ok p) ∨ (∀ c i, (c, i) ∈ todo → clip c i = false) ∨ (oe = false ∧ st.warned = true)) →
    ∃ st', sampleLoop oe n length f chan todo st = .ok st' ∧
      (st'.error = true ↔ st.error = true ∨ (oe = true ∧ ∃ c i, (c, i) ∈ todo ∧ clip c i = true)) ∧
      (∀ c i, (c, i) ∈ todo → st'.ch (chan c) i = some (val c i)) ∧
      (∀ c' i', (∀ c i, (c, i) ∈ todo → ¬ (c' = chan c ∧ i' = i)) → st'.ch c' i' = st.ch c' i') := by
  intro todo
  induction todo with
  | nil => intro st _ _ _; exact ⟨st, rfl, by simp, by simp, by simp⟩
  | cons hd rest ih =>
    intro st hc hinj hint
    obtain ⟨c, i⟩ := hd
    have hci := hc.eq c i (by simp)
    -- the state after the report
    have hrep : ∃ st1 : Loop, reportClip (clip c i) oe n length st = .ok st1 ∧ st1.ch = st.ch ∧ (st1.error = true ↔ st.error = true ∨ (oe = true ∧ clip c i = true)) ∧
        (st.warned = true → st1.warned = true) := by
      unfold reportClip
      by_cases h : clip c i = true
      · rw [if_neg (by simp [h])]
        cases oe with
        | true =>
          rcases hint with ⟨p, hp⟩ | hp | ⟨hp, _⟩
          · simp only [if_true, hp]; exact ⟨_, rfl, rfl, by simp [h], by simp⟩
          · have := hp c i (by simp); rw [h] at this; cases this
          · cases hp
        | false =>
          by_cases hw : st.warned = true
          · simp only [Bool.false_eq_true, if_false, hw, if_true]; exact ⟨_, rfl, rfl, by simp, by simp [hw]⟩
          · rcases hint with ⟨p, hp⟩ | hp | ⟨_, hp⟩
            · simp only [Bool.false_eq_true, if_false, hw, hp]; exact ⟨_, rfl, rfl, by simp, by simp⟩
            · have := hp c i (by simp); rw [h] at this; cases this
            · exact absurd hp hw
      · rw [if_pos (by simpa using h)]; exact ⟨st, rfl, rfl, by simp [h], by simp⟩
    obtain ⟨st1, e1, e2, e3, e4⟩ := hrep
    obtain ⟨st', r1, r2, r3, r4⟩ := ih { st1 with ch := fun c' i' => if c' = chan c ∧ i' = i then some (val c i) else st1.ch c' i' }
      ⟨fun d j h => hc.eq d j (by simp [h])⟩ (fun a b d j h1 h2 => hinj a b d j (by simp [h1]) (by simp [h2])) (by
        rcases hint with hp | hp | ⟨h1, h2⟩
        · exact Or.inl hp
        · exact Or.inr (Or.inl fun d j h => hp d j (by simp [h]))
        · exact Or.inr (Or.inr ⟨h1, e4 h2⟩))
    refine ⟨st', ?_, ?_, ?_, ?_⟩
    · rw [sampleLoop, hci]
      simp only [Res.bind_ok]
      rw [e1]
      exact r1
    · rw [r2]
      simp only [e3]
      constructor
      · rintro ((h | ⟨h1, h2⟩) | ⟨h1, d, j, h2, h3⟩)
        · exact Or.inl h
        · exact Or.inr ⟨h1, c, i, by simp, h2⟩
        · exact Or.inr ⟨h1, d, j, by simp [h2], h3⟩
      · rintro (h | ⟨h1, d, j, h2, h3⟩)
        · exact Or.inl (Or.inl h)
        · rcases List.mem_cons.1 h2 with h2 | h2
          · cases h2; exact Or.inl (Or.inr ⟨h1, h3⟩)
          · exact Or.inr ⟨h1, d, j, h2, h3⟩
    · intro d j h
      by_cases hr : (d, j) ∈ rest
      · exact r3 d j hr
      · rcases List.mem_cons.1 h with h | h
        · cases h
          rw [r4]
          · simp
          · rintro a b hab ⟨h1, h2⟩
            have := hinj c i a b (by simp) (by simp [hab]) h1
            subst this; subst h2
            exact hr hab
        · exact absurd h hr
    · intro c' i' h
      rw [r4 c' i' (fun d j hd => h d j (by simp [hd]))]
      simp only
      rw [if_neg (h c i (by simp)), e2]

theorem loop_ub (oe : Bool) (n length : Int) (f : Nat → Nat → Res (Int × Bool)) (chan : Nat → Nat) (val : Nat → Nat → Int)
    (clip : Nat → Nat → Bool) (hint : interval n length = .ub) : ∀ (todo : List (Nat × Nat)) (st : Loop), Cells f todo val clip →
    (∃ c i, (c, i) ∈ todo ∧ clip c i = true) → (oe = true ∨ st.warned = false) →
    sampleLoop oe n length f chan todo st = .ub := by
  intro todo
  induction todo with
  | nil => rintro st _ ⟨c, i, h, _⟩ _; cases h
  | cons hd rest ih =>
    intro st hc hex hst
    obtain ⟨c, i⟩ := hd
    rw [sampleLoop, hc.eq c i (by simp)]
    simp only [Res.bind_ok, reportClip, hint]
    by_cases h : clip c i = true
    · rw [if_neg (by simp [h])]
      cases oe with
      | true => rfl
      | false =>
        rcases hst with hst | hst
        · cases hst
        · simp only [hst]; rfl
    · rw [if_pos (by simpa using h)]
      simp only [Res.bind_ok]
      apply ih _ ⟨fun d j h => hc.eq d j (by simp [h])⟩
      · obtain ⟨d, j, h1, h2⟩ := hex
        rcases List.mem_cons.1 h1 with h1 | h1
        · cases h1; exact absurd h2 h
        · exact ⟨d, j, h1, h2⟩
      · exact hst

theorem interval_ok {N k : Nat} (h : Spec.Countable N k) (hk : k * 3072 < N) :
    ∃ p, interval k (min 3072 (N - k * 3072) : Nat) = .ok p := by
  unfold Spec.Countable at h
  unfold interval
  have e : ((k : Int) * SAMPLES) = (k * 3072 : Nat) := by unfold SAMPLES; push_cast; rfl
  have b : k * 3072 + min 3072 (N - k * 3072) = min N ((k + 1) * 3072) := by omega
  have i1 : InI32 ((k : Int) * SAMPLES) := by rw [e]; unfold InI32 INT_MAX INT_MIN; omega
  rw [i32_ok i1]
  simp only [Res.bind_ok]
  have i2 : InI32 ((k : Int) * SAMPLES + (min 3072 (N - k * 3072) : Nat)) := by rw [e]; unfold InI32 INT_MAX INT_MIN; omega
  rw [i32_ok i2]
  simp only [Res.bind_ok]
  have i3 : InI32 ((k : Int) * SAMPLES + (min 3072 (N - k * 3072) : Nat) - 1) := by
    rw [e]; unfold InI32 INT_MAX INT_MIN; omega
  rw [i32_ok i3]
  exact ⟨_, rfl⟩

theorem interval_ub {N k : Nat} (h : ¬ Spec.Countable N k) (hk : k * 3072 < N) :
    interval k (min 3072 (N - k * 3072) : Nat) = .ub := by
  unfold Spec.Countable at h
  unfold interval
  have e : ((k : Int) * SAMPLES) = (k * 3072 : Nat) := by unfold SAMPLES; push_cast; rfl
  by_cases i1 : InI32 ((k : Int) * SAMPLES)
  · rw [i32_ok i1]
    simp only [Res.bind_ok]
    rw [i32_ub]
    · rfl
    · rw [e]; unfold InI32 INT_MAX INT_MIN; omega
  · rw [i32_ub i1]; rfl

/-- The loop followed by the end of the function, for frame `k`. -/
theorem loop_frame (name : String) (fmt : AudioFormat) (N k : Nat) (hk : k * 3072 < N) (oe w : Bool)
    (f : Nat → Nat → Res (Int × Bool)) (chan : Nat → Nat) (val : Nat → Nat → Int) (clip : Nat → Nat → Bool) (todo : List (Nat × Nat))
    (sig : Signal Int) (clipS : Nat → Nat → Bool)
    (htodo : ∀ c i, (c, i) ∈ todo ↔ c < fmt.numChannels ∧ i < min 3072 (N - k * 3072))
    (hc : Cells f todo val clip) (hinj : ∀ c d, c < fmt.numChannels → d < fmt.numChannels → chan c = chan d → c = d)
    (hlt : ∀ c, c < fmt.numChannels → chan c < fmt.numChannels)
    (hsurj : ∀ c', c' < fmt.numChannels → ∃ c, c < fmt.numChannels ∧ chan c = c')
    (hsig : ∀ c i, (c, i) ∈ todo → sig (chan c) (k * 3072 + i) = val c i ∧ clipS (chan c) (k * 3072 + i) = clip c i)
    (ch0 : Bufs Int) :
    let r := (sampleLoop oe k (min 3072 (N - k * 3072) : Nat) f chan todo ⟨ch0, w, false⟩).bind
      (finish name k (min 3072 (N - k * 3072) : Nat) fmt)
    ((¬ Spec.ClipsIn fmt.numChannels N clipS k ∨ (oe = false ∧ (Spec.Countable N k ∨ w = true))) →
      ∃ g, r = .ok g ∧ IsFrame fmt N sig k g) ∧
    (Spec.ClipsIn fmt.numChannels N clipS k → oe = true → Spec.Countable N k →
      r = .err (name ++ ": clipping detected in the sample interval " ++ toString ((k * 3072 : Nat) : Int) ++ " to " ++
      toString ((min N ((k + 1) * 3072) - 1 : Nat) : Int))) ∧
    (Spec.ClipsIn fmt.numChannels N clipS k → ¬ Spec.Countable N k → (oe = true ∨ w = false) → r = .ub) := by
  intro r
  have hclips : Spec.ClipsIn fmt.numChannels N clipS k ↔ ∃ c i, (c, i) ∈ todo ∧ clip c i = true := by
    constructor
    · rintro ⟨c', p, h1, h2, h3, h4⟩
      obtain ⟨c, hc1, hc2⟩ := hsurj c' h1
      have hm : (c, p - k * 3072) ∈ todo := (htodo _ _).2 ⟨hc1, by omega⟩
      refine ⟨c, p - k * 3072, hm, ?_⟩
      rw [← (hsig _ _ hm).2, hc2, show k * 3072 + (p - k * 3072) = p by omega]
      exact h4
    · rintro ⟨c, i, h1, h2⟩
      have := (htodo c i).1 h1
      refine ⟨chan c, k * 3072 + i, hlt c this.1, by omega, by omega, ?_⟩
      rw [(hsig c i h1).2]; exact h2
  have hinj' : ∀ c i d j, (c, i) ∈ todo → (d, j) ∈ todo → chan c = chan d → c = d := by
    intro c i d j h1 h2 h
    exact hinj c d ((htodo c i).1 h1).1 ((htodo d j).1 h2).1 h
  refine ⟨?_, ?_, ?_⟩
  · intro h
    obtain ⟨st', e1, e2, e3, -⟩ := loop_ok oe k (min 3072 (N - k * 3072) : Nat) f chan val clip todo ⟨ch0, w, false⟩ hc hinj' (by
      rcases h with h | ⟨h1, h2 | h2⟩
      · right; left
        intro c i hm
        by_contra hx
        exact h (hclips.2 ⟨c, i, hm, by simpa using hx⟩)
      · exact Or.inl (interval_ok h2 hk)
      · exact Or.inr (Or.inr ⟨h1, h2⟩))
    have herr : st'.error = false := by
      rw [← Bool.not_eq_true, e2]
      rintro (h' | ⟨h1, h2⟩)
      · cases h'
      · rcases h with h | ⟨h3, -⟩
        · exact h (hclips.2 h2)
        · rw [h1] at h3; cases h3
    refine ⟨⟨fmt, (min 3072 (N - k * 3072) : Nat), st'.ch⟩, ?_, rfl, rfl, ?_⟩
    · show (sampleLoop oe k (min 3072 (N - k * 3072) : Nat) f chan todo ⟨ch0, w, false⟩).bind _ = _
      rw [e1]
      show finish _ _ _ _ _ = _
      unfold finish
      rw [herr]
      rfl
    · intro c' hc' i hi
      obtain ⟨c, hc1, hc2⟩ := hsurj c' hc'
      have hm : (c, i) ∈ todo := (htodo c i).2 ⟨hc1, hi⟩
      rw [← hc2, (hsig c i hm).1]
      exact e3 c i hm
  · intro h hoe hcount
    obtain ⟨st', e1, e2, -⟩ := loop_ok oe k (min 3072 (N - k * 3072) : Nat) f chan val clip todo ⟨ch0, w, false⟩ hc hinj'
      (Or.inl (interval_ok hcount hk))
    have herr : st'.error = true := e2.2 (Or.inr ⟨hoe, hclips.1 h⟩)
    show (sampleLoop oe k (min 3072 (N - k * 3072) : Nat) f chan todo ⟨ch0, w, false⟩).bind _ = _
    rw [e1]
    show finish _ _ _ _ _ = _
    unfold finish
    rw [herr, if_pos rfl]
    have a1 : (k : Int) * SAMPLES = ((k * 3072 : Nat) : Int) := by unfold SAMPLES; push_cast; rfl
    have a2 : ((k * 3072 : Nat) : Int) + ((min 3072 (N - k * 3072) : Nat) : Int) - 1 = ((min N ((k + 1) * 3072) - 1 : Nat) : Int) := by
      omega
    rw [a1, a2]
  · intro h hcount hoe
    show (sampleLoop oe k (min 3072 (N - k * 3072) : Nat) f chan todo ⟨ch0, w, false⟩).bind _ = _
    rw [loop_ub oe k _ f chan val clip (interval_ub hcount hk) todo ⟨ch0, w, false⟩ hc (hclips.1 h) hoe]
    rfl

theorem mem_byChannel {n l c i : Nat} : (c, i) ∈ byChannel n l ↔ c < n ∧ i < l := by
  simp [byChannel]

theorem mem_byPosition {n l c i : Nat} : (c, i) ∈ byPosition n l ↔ c < n ∧ i < l := by
  simp [byPosition]; tauto

/-- A filter instance that can be created, and how its frames come about. -/
theorem create_frames (f : AFilter Int) (clips : List (AClip Int)) (N : Nat) (hv : isValidAudioInfo f.ai = true)
    (hN : f.ai.numSamples = N) (hmax : (N : Int) ≤ MAX_SAMPLES)
    (reqs : ∀ k, k < frameCount N → ∃ reqs, f.initial k = .ok reqs ∧
      (∀ r ∈ reqs, 0 ≤ r.2 ∧ ∃ c M s, clips[r.1]? = some c ∧ AClip.Carries c M s)) :
    ∃ out, createAudioFilter f clips = .ok out ∧ out.ai = { f.ai with numFrames := frameCount N } ∧
      ∀ k, k < frameCount N → ∃ rq fetch, f.initial k = .ok rq ∧
        (∀ i k', (i, k') ∈ rq → ∀ c M s, clips[i]? = some c → AClip.Carries c M s →
          ∃ g, fetch i k' = some g ∧ IsFrame c.ai.format M s (min k'.toNat (frameCount M - 1)) g) ∧
        (∀ r sig, f.ready k fetch = .ok r → IsFrame f.ai.format N sig k r → out.frame k = .ok r) ∧
        (∀ m, f.ready k fetch = .err m → out.frame k = .err m) ∧ (f.ready k fetch = .ub → out.frame k = .ub) := by
  have hnf : (f.ai.numSamples + SAMPLES - 1).tdiv SAMPLES = (frameCount N : Int) := by
    rw [hN]
    unfold SAMPLES frameCount
    rw [Int.tdiv_eq_ediv_of_nonneg (by omega)]
    omega
  refine ⟨⟨{ f.ai with numFrames := frameCount N }, f.run { f.ai with numFrames := frameCount N } clips⟩, ?_, rfl, ?_⟩
  · unfold createAudioFilter
    simp only [hv, Bool.not_true, Bool.false_eq_true, if_false]
    rw [if_neg (by omega), hnf]
  · intro k hk
    obtain ⟨rq, h1, h2⟩ := reqs k hk
    obtain ⟨avail, hs1, hs2, hs3⟩ := serve_spec clips rq (by
      intro r hr
      obtain ⟨a, c, M, s, b, d⟩ := h2 r hr
      exact ⟨c, M, s, b, d, a⟩)
    refine ⟨rq, fetchFrom clips avail, h1, ?_, ?_, ?_, ?_⟩
    · intro i k' hmem c M s hc hcar
      exact fetch_spec hs2 hs3 hmem hc hcar (h2 _ hmem).1
    · intro r sig h3 h4
      simp only [AFilter.run, h1, hs1, h3, Res.bind_ok]
      unfold checkFrame
      rw [if_neg (by rw [h4.format]; simp), if_neg]
      rw [expected_eq (ai := { f.ai with numFrames := frameCount N }) (N := N) hN rfl hk, h4.len]; simp
    · intro m h3
      simp only [AFilter.run, h1, hs1, h3, Res.bind_ok, Res.bind_err]
    · intro h3
      simp only [AFilter.run, h1, hs1, h3, Res.bind_ok, Res.bind_ub]

end VS.Gain
