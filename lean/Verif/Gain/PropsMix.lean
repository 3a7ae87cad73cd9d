import Verif.Gain.LemmasMix
import Verif.Gain.PropsGain
import Verif.Audio.PropsShuffle

/-!
# C90: AudioMix
-/

namespace VS.Gain

set_option maxRecDepth 10000

open VS VS.Audio

namespace Spec

/-- The samples of all channels of all inputs at position `p`. -/
def channels (inputs : List (AClip Int × Signal Int)) (p : Nat) : List Int :=
  inputs.flatMap fun x => (List.range x.1.ai.format.numChannels).map fun c => x.2 c p

/-- The number of channels of all inputs. -/
def total (inputs : List (AClip Int × Signal Int)) : Nat := (inputs.map (·.1.ai.format.numChannels)).sum

/-- Row `j` of a matrix with rows of length `K`. -/
def row (matrix : List Nat) (K j : Nat) : List Nat := (matrix.drop (j * K)).take K

/-- The arguments AudioMix accepts. -/
structure MixLegal (inputs : List (AClip Int × Signal Int)) (matrix : List Nat) (outs : List Int) : Prop where
  range : ∀ x ∈ outs, 0 ≤ x ∧ x < 64
  distinct : outs.Nodup
  size : matrix.length = outs.length * total inputs
  kind : ∀ x ∈ inputs, ∀ y ∈ inputs, x.1.ai.numSamples = y.1.ai.numSamples ∧ x.1.ai.sampleRate = y.1.ai.sampleRate ∧
    x.1.ai.format.bitsPerSample = y.1.ai.format.bitsPerSample ∧ x.1.ai.format.sampleType = y.1.ai.format.sampleType

/-- What holds for all arguments that reach AudioMix: the arrays are not empty, a clip has channels, and the number of weights is
an `int`. -/
structure MixGiven (inputs : List (AClip Int × Signal Int)) (N : Nat) (outs : List Int) : Prop where
  some_input : inputs ≠ []
  some_out : outs ≠ []
  carries : ∀ x ∈ inputs, ∃ M, x.1.Carries M x.2 ∧ (x.1.ai.numSamples = N → M = N)
  has_channels : ∀ x ∈ inputs, 0 < x.1.ai.format.numChannels
  small : outs.length * total inputs < 2 ^ 31

/-- The format and length of the result. -/
structure MixInfo (inputs : List (AClip Int × Signal Int)) (outs : List Int) (N : Nat) (out : AClip Int) : Prop where
  valid : isValidAudioInfo out.ai = true
  length : out.ai.numSamples = N ∧ out.ai.numFrames = frameCount N
  layout : ∀ b : Nat, out.ai.format.channelLayout.testBit b = true ↔ (b : Int) ∈ outs
  kind : ∀ x ∈ inputs, out.ai.sampleRate = x.1.ai.sampleRate ∧ out.ai.format.bitsPerSample = x.1.ai.format.bitsPerSample ∧
    out.ai.format.sampleType = x.1.ai.format.sampleType

end Spec

/-! ## Arguments -/

theorem mixLayout_eq : ∀ (outs : List Int) (l : Nat), (∀ x ∈ outs, 0 ≤ x ∧ x < 64) →
    mixLayout outs l = some ((outs.map (·.toNat)).foldl (fun l d => l ||| (1 <<< d)) l) := by
  intro outs
  induction outs with
  | nil => intro l _; rfl
  | cons c rest ih =>
    intro l h
    have hc := h c (by simp)
    unfold mixLayout
    simp only [toIntS_small (x := c) (by omega) hc.2]
    rw [if_neg (by omega), ih _ (fun x hx => h x (by simp [hx]))]
    rfl

theorem mixLayout_none : ∀ (outs : List Int) (l : Nat), (∃ x ∈ outs, ¬ (0 ≤ x ∧ x < 64)) → mixLayout outs l = none := by
  intro outs
  induction outs with
  | nil => rintro l ⟨x, hx, _⟩; cases hx
  | cons c rest ih =>
    rintro l ⟨x, hx, hn⟩
    unfold mixLayout
    by_cases hc : 0 ≤ c ∧ c < 64
    · simp only [toIntS_small (x := c) (by omega) hc.2]
      rw [if_neg (by omega)]
      apply ih
      rcases List.mem_cons.1 hx with h | h
      · subst h; exact absurd hc hn
      · exact ⟨x, h, hn⟩
    · rw [if_pos]
      unfold int64ToIntS INT_MAX INT_MIN
      split
      · omega
      · split <;> omega

theorem total_sources (inputs : List (AClip Int × Signal Int)) :
    (mixSources ((inputs.map (·.1)).map (·.ai.format))).length = Spec.total inputs := by
  unfold mixSources Spec.total
  rw [List.length_flatMap]
  simp only [List.length_map, List.length_range]
  have : ∀ (l : List AudioFormat) (k : Nat), ((l.zipIdx k).map (fun p => p.1.numChannels)) = l.map (·.numChannels) := by
    intro l
    induction l with
    | nil => intro k; rfl
    | cons a l ih => intro k; rw [List.zipIdx_cons]; simp [ih]
  rw [this, List.map_map, List.map_map]
  rfl

theorem total_ge {inputs : List (AClip Int × Signal Int)} (h : ∀ x ∈ inputs, 0 < x.1.ai.format.numChannels) :
    inputs.length ≤ Spec.total inputs := by
  induction inputs with
  | nil => simp
  | cons x l ih =>
    have := ih (fun y hy => h y (by simp [hy]))
    have h0 := h x (by simp)
    unfold Spec.total at *
    simp only [List.map_cons, List.sum_cons, List.length_cons]
    omega

/-- A source: the clip and the channel. -/
theorem mem_sources {inputs : List (AClip Int × Signal Int)} {i c : Nat}
    (h : (i, c) ∈ mixSources ((inputs.map (·.1)).map (·.ai.format))) :
    ∃ x, inputs[i]? = some x ∧ c < x.1.ai.format.numChannels := by
  unfold mixSources at h
  rw [List.mem_flatMap] at h
  obtain ⟨⟨f, j⟩, h1, h2⟩ := h
  simp only [List.mem_map, List.mem_range, Prod.mk.injEq] at h2
  obtain ⟨c', h3, h4, h5⟩ := h2
  subst h4; subst h5
  rw [List.mem_zipIdx_iff_getElem?] at h1
  simp only [List.getElem?_map, Option.map_eq_some_iff] at h1
  obtain ⟨a, ⟨x, hx, e1⟩, e2⟩ := h1
  refine ⟨x, hx, ?_⟩
  rw [e1, e2]; exact h3

/-- The samples of the sources in order. -/
theorem channels_sources (inputs : List (AClip Int × Signal Int)) (p : Nat) (val : Nat → Nat → Int)
    (hval : ∀ i x, inputs[i]? = some x → ∀ c, val i c = x.2 c p) :
    Spec.channels inputs p = (mixSources ((inputs.map (·.1)).map (·.ai.format))).map fun s => val s.1 s.2 := by
  unfold mixSources Spec.channels
  rw [List.map_flatMap, List.map_map, List.zipIdx_map, List.flatMap_map]
  have : ∀ (l : List (AClip Int × Signal Int)) (k : Nat), (∀ i x, l[i]? = some x → ∀ c, val (k + i) c = x.2 c p) →
      l.flatMap (fun x => (List.range x.1.ai.format.numChannels).map fun c => x.2 c p) =
      (l.zipIdx k).flatMap (fun a => ((List.range a.1.1.ai.format.numChannels).map fun j => (a.2, j)).map fun s => val s.1 s.2) := by
    intro l
    induction l with
    | nil => intro k _; rfl
    | cons a l ih =>
      intro k h
      rw [List.zipIdx_cons, List.flatMap_cons, List.flatMap_cons, ih (k + 1) (by
        intro i x hx c
        have := h (i + 1) x (by simpa using hx) c
        rwa [show k + (i + 1) = k + 1 + i by omega] at this)]
      congr 1
      rw [List.map_map]
      apply List.map_congr_left
      intro c _
      exact (h 0 a (by simp) c).symm
  exact this inputs 0 (by simpa using hval)

theorem mixTerms_ok (j i : Nat) : ∀ (srcs : List (AFrame Int × MixNode)) (terms : List (Int × Nat)), srcs.length = terms.length →
    (∀ (t : Nat) s x, srcs[t]? = some s → terms[t]? = some x → s.1.ch s.2.idx i = some x.1 ∧ s.2.weights[j]? = some x.2) →
    mixTerms srcs j i = .ok terms := by
  intro srcs
  induction srcs with
  | nil =>
    intro terms hl _
    cases terms with
    | nil => rfl
    | cons => simp at hl
  | cons s srcs ih =>
    intro terms hl h
    cases terms with
    | nil => simp at hl
    | cons x terms =>
      obtain ⟨h1, h2⟩ := h 0 s x (by simp) (by simp)
      unfold mixTerms
      simp only [readSample, h1, h2, Res.bind_ok]
      rw [ih terms (by simpa using hl) (fun t s x a b => h (t + 1) s x (by simpa using a) (by simpa using b))]
      rfl

theorem mixFetch_ok (n : Int) (fetch : Nat → Int → Option (AFrame Int)) (fr : Nat → AFrame Int) : ∀ nodes : List MixNode,
    (∀ s ∈ nodes, fetch s.node n = some (fr s.node)) → mixFetch n fetch nodes = .ok (nodes.map fun s => (fr s.node, s)) := by
  intro nodes
  induction nodes with
  | nil => intro _; rfl
  | cons s rest ih =>
    intro h
    unfold mixFetch
    rw [h s (by simp)]
    simp only [deref, Res.bind_ok]
    rw [ih (fun q hq => h q (by simp [hq]))]
    rfl

/-! ## Channels -/

theorem layout_facts {outs : List Int} (hr : ∀ x ∈ outs, 0 ≤ x ∧ x < 64) :
    ∃ L, mixLayout outs 0 = some L ∧ ∀ b : Nat, L.testBit b = true ↔ (b : Int) ∈ outs := by
  refine ⟨_, mixLayout_eq outs 0 hr, ?_⟩
  intro b
  rw [testBit_foldl]
  simp only [Nat.zero_testBit, Bool.false_or, decide_eq_true_eq, List.mem_map]
  constructor
  · rintro ⟨x, hx, e⟩
    have := hr x hx
    rwa [show (b : Int) = x by omega]
  · intro h
    exact ⟨b, h, by simp⟩

theorem layout_count {outs : List Int} (hr : ∀ x ∈ outs, 0 ≤ x ∧ x < 64) {L : Nat}
    (hL : ∀ b : Nat, L.testBit b = true ↔ (b : Int) ∈ outs) : popcount L = outs.length ↔ outs.Nodup := by
  have e : L.testBit = fun b => decide (b ∈ outs.map (·.toNat)) := by
    funext b
    rw [Bool.eq_iff_iff, hL, decide_eq_true_eq, List.mem_map]
    constructor
    · intro h; exact ⟨b, h, by simp⟩
    · rintro ⟨x, hx, e⟩
      have := hr x hx
      rwa [show (b : Int) = x by omega]
  have hnd : (outs.map (·.toNat)).Nodup ↔ outs.Nodup := by
    constructor
    · intro h
      rw [List.Nodup, List.pairwise_map] at h
      exact List.Pairwise.imp (fun hab e => hab (by rw [e])) h
    · intro h
      rw [List.Nodup, List.pairwise_map]
      apply List.Pairwise.imp_of_mem _ h
      intro a b ha hb hab
      have := hr a ha
      have := hr b hb
      omega
  unfold popcount
  rw [e]
  constructor
  · intro h
    rw [← hnd]
    by_contra hn
    have := (countP_mem_le 64 (outs.map (·.toNat))).2 hn
    rw [List.length_map] at this
    omega
  · intro h
    rw [countP_mem_range 64 _ (hnd.2 h), List.countP_eq_length.2, List.length_map]
    intro x hx
    obtain ⟨y, hy, rfl⟩ := List.mem_map.1 hx
    have := hr y hy
    simp; omega

/-- The whole of AudioMix, from the values of the samples. -/
theorem mix_frames (F : DFloats) (inputs : List (AClip Int × Signal Int)) (N : Nat) (matrix : List Nat) (outs : List Int)
    (hgiv : Spec.MixGiven inputs N outs) (hN : ∀ x ∈ inputs, x.1.ai.numSamples = N) (hl : Spec.MixLegal inputs matrix outs)
    (oe : Option Int) (warned : Int → Bool) (val : Nat → Nat → Int) (clip : Nat → Nat → Bool)
    (hcell : ∀ (fmt : AudioFormat) (srcs : List (AFrame Int × MixNode)) (j i p : Nat), IntFormat fmt →
      (∀ x ∈ inputs, fmt.bitsPerSample = x.1.ai.format.bitsPerSample ∧ fmt.sampleType = x.1.ai.format.sampleType) →
      j < outs.length → p < N →
      mixTerms srcs j i = .ok ((Spec.channels inputs p).zip (Spec.row matrix (Spec.total inputs) j)) →
      mixSample F fmt srcs j i = .ok (val j p, clip j p)) :
    ∃ out sig' clipS, audioMixCreate F (inputs.map (·.1)) matrix outs oe warned = .ok out ∧ Spec.MixInfo inputs outs N out ∧
      (∀ j b, outs[j]? = some b → ∀ p, p < N → sig' (Audio.Spec.rank out.ai.format.channelLayout b.toNat) p = val j p ∧
        clipS (Audio.Spec.rank out.ai.format.channelLayout b.toNat) p = clip j p) ∧
      Spec.Delivers "AudioMix" out N sig' clipS (decide (oe.getD 0 ≠ 0)) warned := by
  obtain ⟨L, hL1, hL2⟩ := layout_facts hl.range
  have hpop : popcount L = outs.length := (layout_count hl.range hL2).2 hl.distinct
  generalize hoe : decide (oe.getD 0 ≠ 0) = o
  obtain ⟨K, hK⟩ : ∃ K, K = Spec.total inputs := ⟨_, rfl⟩
  obtain ⟨sources, hsources⟩ : ∃ s, s = mixSources ((inputs.map (·.1)).map (·.ai.format)) := ⟨_, rfl⟩
  have hsl : sources.length = K := by rw [hsources, total_sources, hK]
  have hKge : inputs.length ≤ K := by rw [hK]; exact total_ge hgiv.has_channels
  have hin0 : 0 < inputs.length := List.length_pos_iff.2 hgiv.some_input
  have hout0 : 0 < outs.length := List.length_pos_iff.2 hgiv.some_out
  have hsmall := hgiv.small
  rw [← hK] at hsmall
  have hcar : ∀ x ∈ inputs, x.1.Carries N x.2 := by
    intro x hx
    obtain ⟨M, h1, h2⟩ := hgiv.carries x hx
    rw [h2 (hN x hx)] at h1
    exact h1
  -- the first source
  obtain ⟨s0, srest, hs0⟩ : ∃ s0 srest, sources = s0 :: srest := by
    cases hss : sources with
    | nil => rw [hss] at hsl; simp at hsl; omega
    | cons a b => exact ⟨a, b, rfl⟩
  have hmem : ∀ s ∈ sources, ∃ x, inputs[s.1]? = some x ∧ s.2 < x.1.ai.format.numChannels := by
    intro s hs
    rw [hsources] at hs
    exact mem_sources hs
  obtain ⟨x0, hx0, -⟩ := hmem s0 (by rw [hs0]; simp)
  have hx0m : x0 ∈ inputs := List.mem_of_getElem? hx0
  have hclip : ∀ (i : Nat) x, inputs[i]? = some x → (inputs.map (·.1))[i]? = some x.1 := by
    intro i x h; simp [h]
  have hv0 := valid_args (hcar x0 hx0m).info
  have hL0 : L ≠ 0 := by
    obtain ⟨b, hb⟩ := List.exists_mem_of_ne_nil _ hgiv.some_out
    intro e
    have hr := hl.range b hb
    have := (hL2 b.toNat).2 (by rwa [show ((b.toNat : Nat) : Int) = b by omega])
    rw [e] at this
    simp at this
  obtain ⟨fmt, f1, f2, f3, f4, f5, f6⟩ := query_valid (st := x0.1.ai.format.sampleType)
    (bits := x0.1.ai.format.bitsPerSample) (l := L) (by
      unfold isValidFormatArgs
      rw [if_neg (by omega), if_neg (by omega), if_neg (by omega), if_neg hL0])
  have hnch : fmt.numChannels = outs.length := by rw [f6, hpop]
  -- the output channels
  obtain ⟨oi, hoi⟩ : ∃ oi, oi = mixOutputIdx outs L := ⟨_, rfl⟩
  have hoil : oi.length = outs.length := by rw [hoi]; simp [mixOutputIdx]
  have hoij : ∀ j b, outs[j]? = some b → oi.getD j 0 = Audio.Spec.rank L b.toNat := by
    intro j b hb
    have hr := hl.range b (List.mem_of_getElem? hb)
    rw [hoi, rank_eq]
    simp [mixOutputIdx, List.getD, hb, toIntS_small (x := b) (by omega) hr.2]
  have hget : ∀ j, j < outs.length → ∃ b, outs[j]? = some b ∧ 0 ≤ b ∧ b < 64 ∧ L.testBit b.toNat = true := by
    intro j hj
    have hm : outs[j] ∈ outs := by simp
    have hr := hl.range _ hm
    exact ⟨outs[j], by simp [hj], hr.1, hr.2, (hL2 _).2 (by rwa [show ((outs[j].toNat : Nat) : Int) = outs[j] by omega])⟩
  have hinj : ∀ c d, c < fmt.numChannels → d < fmt.numChannels → oi.getD c 0 = oi.getD d 0 → c = d := by
    intro c d hc hd h
    rw [hnch] at hc hd
    obtain ⟨a, a1, a2, a3, a4⟩ := hget c hc
    obtain ⟨b, b1, b2, b3, b4⟩ := hget d hd
    rw [hoij c a a1, hoij d b b1] at h
    have e := rank_inj (by omega) (by omega) a4 b4 h
    have e : a = b := by omega
    subst e
    have h1 := (List.getElem?_eq_some_iff.1 a1).2
    have h2 := (List.getElem?_eq_some_iff.1 b1).2
    have hp := List.pairwise_iff_getElem.1 hl.distinct
    rcases Nat.lt_trichotomy c d with h | h | h
    · exact absurd (h1.trans h2.symm) (hp c d hc hd h)
    · exact h
    · exact absurd (h2.trans h1.symm) (hp d c hd hc h)
  have hlt : ∀ c, c < fmt.numChannels → oi.getD c 0 < fmt.numChannels := by
    intro c hc
    rw [hnch] at hc
    obtain ⟨a, a1, a2, a3, a4⟩ := hget c hc
    rw [hoij c a a1, f6]
    exact rank_lt (by omega) a4
  have hsurj : ∀ c', c' < fmt.numChannels → ∃ c, c < fmt.numChannels ∧ oi.getD c 0 = c' := by
    intro c' hc'
    rw [f6, ← layoutChannels_length] at hc'
    have hg := List.getElem?_eq_getElem hc'
    have hb := layoutChannels_mem.1 (List.mem_of_getElem? hg)
    have hm := (hL2 _).1 hb.2
    obtain ⟨j, hj, ej⟩ := List.mem_iff_getElem.1 hm
    refine ⟨j, by omega, ?_⟩
    rw [hoij j _ (by rw [List.getElem?_eq_getElem hj, ej])]
    simp only [Int.toNat_natCast]
    exact layoutChannels_rank hg
  -- the signal
  obtain ⟨inv, hinv⟩ : ∃ inv : Nat → Nat, ∀ c, c < fmt.numChannels → inv (oi.getD c 0) = c := by
    have : ∀ c', ∃ c, c' < fmt.numChannels → c < fmt.numChannels ∧ oi.getD c 0 = c' := by
      intro c'
      by_cases h : c' < fmt.numChannels
      · obtain ⟨c, hc⟩ := hsurj c' h; exact ⟨c, fun _ => hc⟩
      · exact ⟨0, fun h' => absurd h' h⟩
    obtain ⟨inv, hi⟩ := Classical.axiomOfChoice this
    refine ⟨inv, ?_⟩
    intro c hc
    obtain ⟨h1, h2⟩ := hi _ (hlt c hc)
    exact hinj _ _ h1 hc h2
  obtain ⟨nodes, hnodes⟩ : ∃ nodes : List MixNode, nodes = sources.zipIdx.map fun p => ⟨p.1.1, p.1.2, mixWeights matrix outs.length sources.length p.2⟩ :=
    ⟨_, rfl⟩
  have hnodei : ∀ t, t < K → ∃ s, sources[t]? = some s ∧ s ∈ sources ∧ nodes[t]? = some ⟨s.1, s.2, mixWeights matrix outs.length K t⟩ := by
    intro t ht
    have hts : t < sources.length := by omega
    refine ⟨sources[t], by simp [hts], by simp, ?_⟩
    rw [hnodes, hsl]
    simp [hts]
  have hnl : nodes.length = K := by rw [hnodes]; simp [hsl]
  have hnmem : ∀ s ∈ nodes, ∃ x, inputs[s.node]? = some x ∧ s.idx < x.1.ai.format.numChannels := by
    intro s hs
    obtain ⟨t, ht, rfl⟩ := List.mem_iff_getElem.1 hs
    obtain ⟨q, q1, q2, q3⟩ := hnodei t (by omega)
    rw [List.getElem?_eq_getElem ht] at q3
    rw [Option.some.inj q3]
    exact hmem q q2
  have hvalid : isValidAudioInfo { x0.1.ai with format := fmt } = true := by
    have h1 := (hcar x0 hx0m).len_pos
    have h2 := (hcar x0 hx0m).count
    unfold isValidAudioInfo
    simp only [f2]
    rw [if_neg (by simp), if_neg (by omega)]
  have hcreate : audioMixCreate F (inputs.map (·.1)) matrix outs oe warned =
      createAudioFilter (mixFilter F { x0.1.ai with format := fmt } nodes oi o warned) (inputs.map (·.1)) := by
    unfold audioMixCreate
    simp only [hL1, ← hsources, hoe]
    rw [if_neg (by simp; omega)]
    have hi : ((outs.length : Int) * sources.length) = ((outs.length * K : Nat) : Int) := by rw [hsl]; push_cast; rfl
    rw [hi, i32_ok (by unfold InI32 INT_MAX INT_MIN; omega)]
    simp only [Res.bind]
    rw [if_neg (by rw [hl.size, hK]; simp), hs0]
    simp only [List.head?_cons, hclip _ _ hx0]
    rw [if_neg, f1]
    · simp only
      rw [if_neg (by rw [hnch]; simp), ← hs0, ← hnodes, ← hoi]
    · simp only [List.any_eq_true, List.mem_map, decide_eq_true_eq, not_exists, not_and]
      rintro c ⟨x, hx, rfl⟩
      have := hl.kind x hx x0 hx0m
      intro hh
      rcases hh with h | h | h | h
      · exact h this.1
      · exact h this.2.1
      · exact h this.2.2.1
      · exact h this.2.2.2
  obtain ⟨out, e1, e2, e3⟩ := create_frames (mixFilter F { x0.1.ai with format := fmt } nodes oi o warned) (inputs.map (·.1)) N hvalid
    (hN x0 hx0m) (hcar x0 hx0m).range (by
    intro k hk
    refine ⟨_, rfl, ?_⟩
    intro r hr
    simp only [List.map_map, List.mem_map, Function.comp] at hr
    obtain ⟨s, hs, rfl⟩ := hr
    obtain ⟨x, hx, -⟩ := hnmem s hs
    exact ⟨by simp, x.1, N, x.2, hclip _ _ hx, hcar x (List.mem_of_getElem? hx)⟩)
  have hfmt : out.ai.format = fmt := by rw [e2]; rfl
  refine ⟨out, fun c p => val (inv c) p, fun c p => clip (inv c) p, by rw [hcreate]; exact e1, ?_, ?_, ?_⟩
  · refine ⟨?_, ⟨by rw [e2]; exact hN x0 hx0m, by rw [e2]⟩, ?_, ?_⟩
    · rw [e2]
      have h1 := (hcar x0 hx0m).len_pos
      have h2 := (hcar x0 hx0m).count
      unfold isValidAudioInfo
      simp only [mixFilter, f2]
      rw [if_neg (by simp), if_neg (by omega)]
    · rw [hfmt, f5]; exact hL2
    · intro x hx
      have hk := hl.kind x0 hx0m x hx
      rw [e2]
      simp only [mixFilter, f3, f4]
      exact hk.2
  · intro j b hb p hp
    rw [hfmt, f5, ← hoij j b hb]
    have hj : j < fmt.numChannels := by rw [hnch]; exact (List.getElem?_eq_some_iff.1 hb).1
    simp only [hinv j hj]
    exact ⟨trivial, trivial⟩
  · have key : ∀ k, k < frameCount N →
        ((¬ Spec.ClipsIn fmt.numChannels N (fun c p => clip (inv c) p) k ∨ (o = false ∧ (Spec.Countable N k ∨ warned k = true))) →
          ∃ f, out.frame k = .ok f ∧ IsFrame fmt N (fun c p => val (inv c) p) k f) ∧
        (Spec.ClipsIn fmt.numChannels N (fun c p => clip (inv c) p) k → o = true → Spec.Countable N k →
          out.frame k = .err ("AudioMix" ++ ": clipping detected in the sample interval " ++ toString ((k * 3072 : Nat) : Int) ++ " to " ++
            toString ((min N ((k + 1) * 3072) - 1 : Nat) : Int))) ∧
        (Spec.ClipsIn fmt.numChannels N (fun c p => clip (inv c) p) k → ¬ Spec.Countable N k → (o = true ∨ warned k = false) →
          out.frame k = .ub) := by
      intro k hk
      obtain ⟨rq, fetch, r1, r2, r3, r4, r5⟩ := e3 k hk
      have hkN := lt_of_lt_frameCount hk
      -- the frames of the clips
      have hfr : ∀ i, ∃ g : AFrame Int, (∃ s ∈ nodes, s.node = i) → ∀ x, inputs[i]? = some x →
          fetch i k = some g ∧ IsFrame x.1.ai.format N x.2 k g := by
        intro i
        by_cases hi : ∃ s ∈ nodes, s.node = i
        · obtain ⟨s, hs, rfl⟩ := hi
          obtain ⟨x, hx, -⟩ := hnmem s hs
          obtain ⟨g, g1, g2⟩ := r2 s.node k (by
            cases r1
            simp only [List.map_map, List.mem_map, Function.comp]
            exact ⟨s, hs, rfl⟩) x.1 N x.2 (hclip _ _ hx) (hcar x (List.mem_of_getElem? hx))
          rw [show min (k : Int).toNat (frameCount N - 1) = k by omega] at g2
          refine ⟨g, fun _ y hy => ?_⟩
          rw [hx] at hy
          cases hy
          exact ⟨g1, g2⟩
        · exact ⟨⟨fmt, 0, fun _ _ => none⟩, fun h => absurd h hi⟩
      obtain ⟨fr, hfr⟩ := Classical.axiomOfChoice hfr
      have hfetch : mixFetch k fetch nodes = .ok (nodes.map fun s => (fr s.node, s)) := by
        apply mixFetch_ok
        intro s hs
        obtain ⟨x, hx, -⟩ := hnmem s hs
        exact (hfr s.node ⟨s, hs, rfl⟩ x hx).1
      obtain ⟨n0, nrest, hn0⟩ : ∃ n0 nrest, nodes = n0 :: nrest := by
        cases hss : nodes with
        | nil => rw [hss] at hnl; simp at hnl; omega
        | cons a b => exact ⟨a, b, rfl⟩
      have hlen0 : (fr n0.node).len = (min 3072 (N - k * 3072) : Nat) := by
        obtain ⟨x, hx, -⟩ := hnmem n0 (by rw [hn0]; simp)
        exact (hfr n0.node ⟨n0, by rw [hn0]; simp, rfl⟩ x hx).2.len
      have hready : (mixFilter F { x0.1.ai with format := fmt } nodes oi o warned).ready k fetch =
          (sampleLoop o k (min 3072 (N - k * 3072) : Nat) (mixSample F fmt (nodes.map fun s => (fr s.node, s))) (fun c => oi.getD c 0)
            (byPosition fmt.numChannels (min 3072 (N - k * 3072))) ⟨fun _ _ => none, warned k, false⟩).bind
            (finish "AudioMix" k (min 3072 (N - k * 3072) : Nat) fmt) := by
        show (mixFetch k fetch nodes >>= _) = _
        rw [hfetch]
        simp only [Res.bind_ok]
        rw [show (nodes.map fun s => (fr s.node, s)) = (fr n0.node, n0) :: (nrest.map fun s => (fr s.node, s)) by rw [hn0]; rfl]
        simp only [hlen0]
        rw [newAudioFrame_ok (by omega)]
        simp only [Res.bind_ok, Int.toNat_natCast]
        rw [if_neg (by omega)]
        rfl
      have main := loop_frame "AudioMix" fmt N k hkN o (warned k) (mixSample F fmt (nodes.map fun s => (fr s.node, s)))
        (fun c => oi.getD c 0)
        (fun c i => val c (k * 3072 + i)) (fun c i => clip c (k * 3072 + i))
        (byPosition fmt.numChannels (min 3072 (N - k * 3072))) (fun c p => val (inv c) p) (fun c p => clip (inv c) p)
        (fun c i => mem_byPosition)
        ⟨fun c i hm => by
          obtain ⟨m1, m2⟩ := mem_byPosition.1 hm
          refine hcell fmt _ c i (k * 3072 + i) ?_ ?_ (by omega) (by omega) ?_
          · exact valid_bytes (ai := { x0.1.ai with format := fmt }) hvalid
          · intro x hx
            have hk := hl.kind x0 hx0m x hx
            rw [f3, f4]
            exact hk.2.2
          · have hch : Spec.channels inputs (k * 3072 + i) = sources.map fun s => ((inputs[s.1]?.map fun x => x.2 s.2 (k * 3072 + i)).getD 0) := by
              rw [hsources]
              apply channels_sources inputs (k * 3072 + i) (fun a b => ((inputs[a]?.map fun x => x.2 b (k * 3072 + i)).getD 0))
              intro a x hx b
              simp [hx]
            have hrow : (Spec.row matrix K c).length = K := by
              unfold Spec.row
              rw [List.length_take, List.length_drop, hl.size, ← hK]
              have : c * K + K ≤ outs.length * K := by
                rw [← Nat.succ_mul]
                exact Nat.mul_le_mul_right K (by omega)
              omega
            rw [← hK]
            apply mixTerms_ok
            · rw [List.length_map, List.length_zip, hrow, hch, List.length_map]; omega
            · intro t s y hs hy
              rw [List.getElem?_map] at hs
              have ht : t < K := by
                have := (List.getElem?_eq_some_iff.1 hy).1
                rw [List.length_zip, hrow] at this
                omega
              obtain ⟨q, q1, q2, q3⟩ := hnodei t ht
              rw [q3] at hs
              simp only [Option.map_some, Option.some.injEq] at hs
              subst hs
              simp only
              obtain ⟨x, hx, hxc⟩ := hmem q q2
              rw [List.getElem?_zip_eq_some, hch, List.getElem?_map, q1] at hy
              obtain ⟨y1, y2⟩ := hy
              simp only [Option.map_some, hx, Option.getD_some, Option.some.injEq] at y1
              constructor
              · have hfm : ∃ s ∈ nodes, s.node = q.1 := ⟨_, List.mem_of_getElem? q3, rfl⟩
                rw [← y1]
                exact (hfr q.1 hfm x hx).2.samples q.2 hxc i m2
              · have hc : c < outs.length := by omega
                have hidx : c * K + t < matrix.length := by
                  have : c * K + K ≤ outs.length * K := by
                    rw [← Nat.succ_mul]
                    exact Nat.mul_le_mul_right K (by omega)
                  rw [hl.size, ← hK]; omega
                unfold mixWeights
                rw [List.getElem?_map, List.getElem?_range hc]
                simp only [Option.map_some, Option.some.injEq]
                unfold Spec.row at y2
                rw [List.getElem?_take, if_pos ht, List.getElem?_drop, List.getElem?_eq_getElem hidx] at y2
                rw [← Option.some.inj y2]
                simp [List.getD, hidx]⟩
        hinj hlt hsurj (fun c i hm => by
          have := hinv c (mem_byPosition.1 hm).1
          simp only [this]
          exact ⟨trivial, trivial⟩) (fun _ _ => none)
      simp only at main
      rw [← hready] at main
      obtain ⟨m1, m2, m3⟩ := main
      refine ⟨?_, ?_, ?_⟩
      · intro hh
        obtain ⟨g, g1, g2⟩ := m1 hh
        exact ⟨g, r3 g _ g1 g2, g2⟩
      · intro a b c
        exact r4 _ (m2 a b c)
      · intro a b c
        exact r5 (m3 a b c)
    constructor
    · rw [hfmt]; exact fun k hk => (key k hk).1
    · rw [hfmt]; exact fun k hk => (key k hk).2.1
    · rw [hfmt]; exact fun k hk => (key k hk).2.2

end VS.Gain
