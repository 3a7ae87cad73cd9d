import Verif.Audio.LemmasShuffle

/-!
# C37: ShuffleChannels and SplitChannels
-/

namespace VS.Audio

set_option maxRecDepth 10000

variable {α : Type}

namespace Spec

/-- Position of channel number `b` among the channels of a layout: how many channels of the layout have a
smaller number. -/
def rank (layout b : Nat) : Nat := ((List.range b).filter layout.testBit).length

/-- Which channel of an input a `channels_in` entry names: a negative entry counts from the first channel, zero is always
the first channel, a positive entry is a channel number that has to be present. -/
def Names (fmt : AudioFormat) (a : Int) (idx : Nat) : Prop :=
  idx < fmt.numChannels ∧
    if a < 0 then (idx : Int) = -a - 1
    else if a = 0 then idx = 0
    else fmt.channelLayout.testBit a.toNat = true ∧ idx = rank fmt.channelLayout a.toNat

end Spec

theorem rank_eq (layout b : Nat) : Spec.rank layout b = chanIndex layout b := by
  unfold Spec.rank chanIndex; rw [List.countP_eq_length_filter]

theorem rank_lt {layout b : Nat} (hb : b < 64) (h : layout.testBit b = true) : Spec.rank layout b < popcount layout := by
  rw [rank_eq]
  unfold chanIndex popcount
  have e : List.range 64 = List.range b ++ (List.range (64 - b)).map (b + ·) := by
    rw [← List.range_add]; congr 1; omega
  rw [e, List.countP_append]
  have : 0 < ((List.range (64 - b)).map (b + ·)).countP layout.testBit := by
    rw [List.countP_pos_iff]
    exact ⟨b, List.mem_map.2 ⟨0, by simp; omega, by omega⟩, h⟩
  omega

theorem valid_popcount {x : AudioInfo} (hx : isValidAudioInfo x = true) :
    x.format.numChannels = popcount x.format.channelLayout := by
  unfold isValidAudioInfo at hx
  split at hx
  · cases hx
  rename_i hx'
  unfold isValidAudioFormat at hx'
  split at hx'
  · simp at hx'
  split at hx'
  · simp at hx'
  rename_i h
  simpa using h

theorem resolve_of_names {fmt : AudioFormat} {a : Int} {idx : Nat} (h : Spec.Names fmt a idx) :
    resolveChannel fmt a = some (idx : Int) := by
  obtain ⟨h1, h2⟩ := h
  unfold resolveChannel
  by_cases ha : a < 0
  · rw [if_pos ha] at h2 ⊢
    rw [if_neg (by omega), ← h2]
  · rw [if_neg ha] at h2 ⊢
    by_cases h0 : a = 0
    · subst h0
      rw [if_pos rfl] at h2
      subst h2
      simp [chanIndex]
    · rw [if_neg h0] at h2
      rw [if_neg (by simp [h2.1]), h2.2, rank_eq]

theorem resolve_of_not_names {ai : AudioInfo} (hv : isValidAudioInfo ai = true) (hch : 0 < ai.format.numChannels) {a : Int}
    (ha : a < 64) (h : ∀ idx, ¬ Spec.Names ai.format a idx) : resolveChannel ai.format a = none := by
  unfold resolveChannel
  by_cases hn : a < 0
  · rw [if_pos hn]
    by_cases hp : (ai.format.numChannels : Int) ≤ -a - 1
    · rw [if_pos hp]
    · exfalso
      exact h (-a - 1).toNat ⟨by omega, by rw [if_pos hn]; omega⟩
  · rw [if_neg hn]
    by_cases h0 : a = 0
    · subst h0
      exact absurd ⟨hch, by simp⟩ (h 0)
    · rw [if_pos]
      refine ⟨by omega, ?_⟩
      apply Classical.byContradiction
      intro hb
      have hb : ai.format.channelLayout.testBit a.toNat = true := by simpa using hb
      apply h (Spec.rank ai.format.channelLayout a.toNat)
      refine ⟨?_, ?_⟩
      · rw [valid_popcount hv]; exact rank_lt (by omega) hb
      · rw [if_neg hn, if_neg h0]; exact ⟨hb, rfl⟩

theorem query_valid {st bits : Int} {l : Nat} (h : isValidFormatArgs st bits l = true) :
    ∃ f, queryAudioFormat st bits l = some f ∧ isValidAudioFormat f = true ∧ f.sampleType = st ∧ f.bitsPerSample = bits ∧
      f.channelLayout = l ∧ f.numChannels = popcount l := by
  refine ⟨_, by unfold queryAudioFormat; rw [if_neg (by simp [h])], ?_, rfl, rfl, rfl, rfl⟩
  unfold isValidAudioFormat
  simp only [h]
  simp
  constructor <;> omega

theorem valid_args {x : AudioInfo} (hx : isValidAudioInfo x = true) :
    (x.format.sampleType = 0 ∨ x.format.sampleType = 1) ∧ 16 ≤ x.format.bitsPerSample ∧ x.format.bitsPerSample ≤ 32 ∧
      (x.format.sampleType = 1 → x.format.bitsPerSample = 32) ∧ 1 ≤ x.sampleRate := by
  unfold isValidAudioInfo at hx
  split at hx
  · cases hx
  rename_i h1
  split at hx
  · cases hx
  rename_i h2
  unfold isValidAudioFormat at h1
  split at h1
  · simp at h1
  rename_i h3
  unfold isValidFormatArgs at h3
  by_cases c1 : x.format.sampleType ≠ 0 ∧ x.format.sampleType ≠ 1
  · simp [c1] at h3
  rw [if_neg c1] at h3
  by_cases c2 : x.format.bitsPerSample < 16 ∨ x.format.bitsPerSample > 32
  · simp [c2] at h3
  rw [if_neg c2] at h3
  by_cases c3 : x.format.sampleType = 1 ∧ x.format.bitsPerSample ≠ 32
  · simp [c3] at h3
  refine ⟨by omega, by omega, by omega, by omega, by omega⟩

/-- What `ShuffleChannels` delivers: output channel number `outs[j]` carries the named channel of the `j`-th input
(the last input serves all remaining entries), padded with silence up to the longest input. -/
structure Shuffled [Zero α] (inputs : List (AClip α × Nat × Signal α)) (ins outs : List Int) (out : AClip α) (N : Nat)
    (sig : Signal α) : Prop where
  carries : out.Carries N sig
  longest : (∀ x ∈ inputs, x.2.1 ≤ N) ∧ ∃ x ∈ inputs, N = x.2.1
  layout : ∀ b : Nat, out.ai.format.channelLayout.testBit b = true ↔ (b : Int) ∈ outs
  kind : ∀ x ∈ inputs, out.ai.sampleRate = x.1.ai.sampleRate ∧ out.ai.format.bitsPerSample = x.1.ai.format.bitsPerSample ∧
    out.ai.format.sampleType = x.1.ai.format.sampleType
  channels : ∀ (j : Nat) (a b : Int) (x : AClip α × Nat × Signal α) (idx : Nat), ins[j]? = some a → outs[j]? = some b →
    inputs[min (inputs.length - 1) j]? = some x → Spec.Names x.1.ai.format a idx →
    ∀ p, sig (Spec.rank out.ai.format.channelLayout b.toNat) p = Spec.padded x.2.1 (x.2.2 idx) p

/-- The arguments `ShuffleChannels` accepts. -/
structure ShuffleLegal (inputs : List (AClip α × Nat × Signal α)) (ins outs : List Int) : Prop where
  sameLen : ins.length = outs.length
  enough : inputs.length ≤ ins.length
  insRange : ∀ x ∈ ins, -64 ≤ x ∧ x < 64
  outsRange : ∀ x ∈ outs, 0 ≤ x ∧ x < 64
  outsDistinct : outs.Nodup
  kind : ∀ x ∈ inputs, ∀ y ∈ inputs, x.1.ai.sampleRate = y.1.ai.sampleRate ∧
    x.1.ai.format.bitsPerSample = y.1.ai.format.bitsPerSample ∧ x.1.ai.format.sampleType = y.1.ai.format.sampleType
  present : ∀ (j : Nat) (a : Int) (x : AClip α × Nat × Signal α), ins[j]? = some a →
    inputs[min (inputs.length - 1) j]? = some x → ∃ idx, Spec.Names x.1.ai.format a idx

theorem C37_shuffleChannels [Zero α] (inputs : List (AClip α × Nat × Signal α)) (ins outs : List Int)
    (hne : inputs ≠ []) (hcar : ∀ x ∈ inputs, x.1.Carries x.2.1 x.2.2) (hl : ShuffleLegal inputs ins outs) :
    ∃ out N sig, shuffleCreate (inputs.map (·.1)) ins outs = .ok out ∧ Shuffled inputs ins outs out N sig := by
  have hlen0 : 0 < inputs.length := List.length_pos_iff.2 hne
  -- arguments
  obtain ⟨nodes, n1, n2, n3, n4⟩ := shufArgs_ok inputs.length ins outs 0 hl.sameLen hl.insRange hl.outsRange
  simp only [Nat.zero_add] at n4
  have hnode : ∀ s ∈ nodes, ∃ j a b, ins[j]? = some a ∧ outs[j]? = some b ∧
      s = ⟨min (inputs.length - 1) j, a, b, -1⟩ := by
    intro s hs
    obtain ⟨j, hj, rfl⟩ := List.mem_iff_getElem.1 hs
    have hj1 : j < ins.length := by omega
    have hj2 : j < outs.length := by have := hl.sameLen; omega
    refine ⟨j, ins[j], outs[j], by simp [hj1], by simp [hj2], ?_⟩
    have := n4 j ins[j] outs[j] (by simp [hj1]) (by simp [hj2])
    rw [List.getElem?_eq_getElem hj] at this
    exact Option.some.inj this
  -- the sorted list
  obtain ⟨sorted, hsorted⟩ : ∃ sorted, sorted = nodes.mergeSort (fun a b => decide (a.dstIdx ≤ b.dstIdx)) := ⟨_, rfl⟩
  have hperm : sorted.Perm nodes := by rw [hsorted]; exact List.mergeSort_perm _ _
  have hmem : ∀ s, s ∈ sorted ↔ s ∈ nodes := fun s => hperm.mem_iff
  have hsl : sorted.length = ins.length := by rw [hperm.length_eq, n2]
  have hdst0 : ∀ s ∈ nodes, 0 ≤ s.dstIdx ∧ s.dstIdx < 64 := by
    intro s hs
    exact hl.outsRange _ (by rw [← n3]; exact List.mem_map.2 ⟨s, hs, rfl⟩)
  have hpw : (sorted.map (·.dstIdx.toNat)).Pairwise (· < ·) := by
    have p1 : sorted.Pairwise (fun a b => decide (a.dstIdx ≤ b.dstIdx) = true) := by
      rw [hsorted]
      apply List.pairwise_mergeSort
      · intro a b c h1 h2; simp at *; omega
      · intro a b; simp; omega
    have p2 : (sorted.map (·.dstIdx)).Nodup := by
      have : (sorted.map (·.dstIdx)).Perm outs := by rw [← n3]; exact hperm.map _
      exact this.symm.nodup hl.outsDistinct
    rw [List.pairwise_map]
    have p3 : sorted.Pairwise (fun a b => a.dstIdx ≠ b.dstIdx) := List.pairwise_map.1 p2
    have p4 : sorted.Pairwise (fun a b : ShufNode => a.dstIdx < b.dstIdx) := by
      apply List.Pairwise.imp₂ _ p1 p3
      intro a b h1 h2
      simp at h1
      omega
    apply List.Pairwise.imp_of_mem _ p4
    intro a b ha hb hab
    have := hdst0 a ((hmem a).1 ha)
    have := hdst0 b ((hmem b).1 hb)
    omega
  -- the layout
  have hbit : ∀ b : Nat, (shufLayout nodes).testBit b = true ↔ (b : Int) ∈ outs := by
    intro b
    rw [shufLayout_testBit, decide_eq_true_eq, ← n3, List.mem_map, List.mem_map]
    constructor
    · rintro ⟨s, hs, e⟩
      exact ⟨s, hs, by have := hdst0 s hs; omega⟩
    · rintro ⟨s, hs, e⟩
      exact ⟨s, hs, by omega⟩
  have hbit' : (shufLayout nodes).testBit = fun b => decide (b ∈ sorted.map (·.dstIdx.toNat)) := by
    funext b
    rw [shufLayout_testBit]
    congr 1
    rw [List.mem_map, List.mem_map]
    simp only [hmem]
  have hnd : (sorted.map (·.dstIdx.toNat)).Nodup := hpw.imp (fun h => by omega)
  have hpop : popcount (shufLayout nodes) = outs.length := by
    unfold popcount
    rw [hbit', countP_mem_range 64 _ hnd, List.countP_eq_length.2, List.length_map, hsl, hl.sameLen]
    intro x hx
    obtain ⟨s, hs, rfl⟩ := List.mem_map.1 hx
    have := hdst0 s ((hmem s).1 hs)
    simp; omega
  have hrank : ∀ t s, sorted[t]? = some s → Spec.rank (shufLayout nodes) s.dstIdx.toNat = t := by
    intro t s hs
    rw [rank_eq]
    unfold chanIndex
    rw [hbit', countP_mem_range _ _ hnd]
    apply countP_sorted hpw
    rw [List.getElem?_map, hs]; rfl
  -- resolving
  have hin : ∀ s ∈ nodes, ∃ x idx, inputs[s.node]? = some x ∧ x ∈ inputs ∧ Spec.Names x.1.ai.format s.idx idx := by
    intro s hs
    obtain ⟨j, a, b, ha, hb, rfl⟩ := hnode s hs
    have hlt : min (inputs.length - 1) j < inputs.length := by omega
    obtain ⟨idx, hidx⟩ := hl.present j a inputs[min (inputs.length - 1) j] ha (by simp [hlt])
    exact ⟨_, idx, by simp only; simp [hlt], by simp, hidx⟩
  obtain ⟨idxOf, hidxOf⟩ : ∃ idxOf : ShufNode → Nat, ∀ s, idxOf s = match inputs[s.node]? with
      | some x => ((resolveChannel x.1.ai.format s.idx).getD 0).toNat
      | none => 0 := ⟨_, fun _ => rfl⟩
  have hidx : ∀ s x idx, inputs[s.node]? = some x → Spec.Names x.1.ai.format s.idx idx → idxOf s = idx := by
    intro s x idx hx hn
    rw [hidxOf, hx]
    simp only
    rw [resolve_of_names hn]
    simp
  have hsne : sorted ≠ [] := by
    intro e; rw [e] at hsl; simp at hsl; have := hl.enough; omega
  obtain ⟨s0, srest, hs0⟩ : ∃ s0 srest, sorted = s0 :: srest := by
    cases hss : sorted with
    | nil => exact absurd hss hsne
    | cons a b => exact ⟨a, b, rfl⟩
  have hs0m : s0 ∈ nodes := (hmem s0).1 (by rw [hs0]; simp)
  obtain ⟨x0, _, hx0, hx0m, -⟩ := hin s0 hs0m
  have hclip : ∀ (i : Nat) x, inputs[i]? = some x → (inputs.map (·.1))[i]? = some x.1 := by
    intro i x h; simp [h]
  obtain ⟨r, m, r1, r2, r3, r4, r5, r6⟩ := shufResolve_ok x0.1.ai (inputs.map (·.1)) idxOf sorted x0.1.ai.numSamples (by
    intro s hs
    obtain ⟨x, idx, hx, hxm, hn⟩ := hin s ((hmem s).1 hs)
    have hk := hl.kind x hxm x0 hx0m
    refine ⟨x.1, hclip _ _ hx, hk.1, hk.2.1, hk.2.2, ?_⟩
    rw [hidx s x idx hx hn]
    exact resolve_of_names hn)
  have hm : (∃ x ∈ inputs, m = x.1.ai.numSamples) ∧ ∀ x ∈ inputs, x.1.ai.numSamples ≤ m := by
    constructor
    · rcases r6 with e | ⟨s, hs, c, hc, e⟩
      · exact ⟨x0, hx0m, e⟩
      · obtain ⟨x, idx, hx, hxm, hn⟩ := hin s ((hmem s).1 hs)
        rw [hclip _ _ hx] at hc
        cases hc
        exact ⟨x, hxm, e⟩
    · intro x hx
      obtain ⟨j, hj, rfl⟩ := List.mem_iff_getElem.1 hx
      have he := hl.enough
      have hj1 : j < ins.length := by omega
      have hj2 : j < outs.length := by have := hl.sameLen; omega
      have hq := n4 j ins[j] outs[j] (by simp [hj1]) (by simp [hj2])
      have hmin : min (inputs.length - 1) j = j := by omega
      rw [hmin] at hq
      exact r5 _ ((hmem _).2 (List.mem_of_getElem? hq)) _ (hclip j inputs[j] (by simp [hj]))
  obtain ⟨⟨xm, hxm, hmN⟩, hmax⟩ := hm
  have hmN' := (hcar xm hxm).count
  rw [hmN'] at hmN
  subst hmN
  have hv0 := valid_args (hcar x0 hx0m).info
  have hlayout0 : shufLayout nodes ≠ 0 := by
    intro e
    have := (hbit s0.dstIdx.toNat).2 (by
      have := hdst0 s0 hs0m
      rw [← n3]
      exact List.mem_map.2 ⟨s0, hs0m, by omega⟩)
    rw [e] at this
    simp at this
  obtain ⟨fmt, f1, f2, f3, f4, f5, f6⟩ := query_valid (st := x0.1.ai.format.sampleType)
    (bits := x0.1.ai.format.bitsPerSample) (l := shufLayout nodes) (by
      unfold isValidFormatArgs
      rw [if_neg (by omega), if_neg (by omega), if_neg (by omega), if_neg hlayout0])
  -- the signal
  obtain ⟨sig, hsig⟩ : ∃ sig : Signal α, ∀ c p, sig c p = match sorted[c]? with
      | some s => (match inputs[s.node]? with
        | some x => Spec.padded x.2.1 (x.2.2 (idxOf s)) p
        | none => 0)
      | none => 0 := ⟨_, fun _ _ => rfl⟩
  have hvalid : isValidAudioInfo { x0.1.ai with format := fmt, numSamples := (xm.2.1 : Int) } = true := by
    have := (hcar xm hxm).len_pos
    unfold isValidAudioInfo
    simp only [f2]
    rw [if_neg (by simp), if_neg (by omega)]
  have hcreate : shuffleCreate (inputs.map (·.1)) ins outs =
      createAudioFilter (shuffleFilter { x0.1.ai with format := fmt, numSamples := (xm.2.1 : Int) } r) (inputs.map (·.1)) := by
    unfold shuffleCreate
    rw [if_neg (by simp [hl.sameLen]), if_neg (by simp; have := hl.enough; omega), List.length_map, n1]
    simp only [← hsorted]
    rw [show sorted.head? = some s0 by rw [hs0]; rfl]
    simp only [hclip _ _ hx0, r1, Res.bind, f1]
    rw [if_neg (by rw [f6, hpop]; simp)]
  obtain ⟨out, o1, o2, o3⟩ := create_carries'
    (shuffleFilter { x0.1.ai with format := fmt, numSamples := (xm.2.1 : Int) } r) (inputs.map (·.1)) xm.2.1 sig hvalid rfl
    (hcar xm hxm).range (by
    intro k hk
    have hlt := lt_of_lt_frameCount hk
    -- every resolved node
    have hres : ∀ (t : Nat) (s : ShufNode), r[t]? = some s → ∃ (s' : ShufNode) (x : AClip α × Nat × Signal α) (idx : Nat), sorted[t]? = some s' ∧ inputs[s'.node]? = some x ∧ x ∈ inputs ∧
        Spec.Names x.1.ai.format s'.idx idx ∧ s = ⟨s'.node, idx, s'.dstIdx, x.1.ai.numFrames⟩ := by
      intro t s hs
      have ht : t < sorted.length := by
        have := (List.getElem?_eq_some_iff.1 hs).1; omega
      obtain ⟨x, idx, hx, hxm, hn⟩ := hin sorted[t] ((hmem _).1 (by simp))
      obtain ⟨c, hc, hr⟩ := r3 t sorted[t] (by simp [ht])
      rw [hclip _ _ hx] at hc
      cases hc
      rw [hs, hidx _ _ _ hx hn] at hr
      exact ⟨sorted[t], x, idx, by simp [ht], hx, hxm, hn, Option.some.inj hr⟩
    refine ⟨_, rfl, ?_, ?_⟩
    · intro q hq
      simp only [List.map_map, List.mem_map, Function.comp] at hq
      obtain ⟨s, hs, rfl⟩ := hq
      obtain ⟨t, ht, rfl⟩ := List.mem_iff_getElem.1 hs
      obtain ⟨s', x, idx, -, hx, hxm, -, e⟩ := hres t r[t] (by simp [ht])
      refine ⟨by simp only; omega, x.1, x.2.1, x.2.2, ?_, hcar x hxm⟩
      rw [e]
      exact hclip _ _ hx
    · intro fetch hf
      obtain ⟨D, hD⟩ : ∃ D, D = min 3072 (xm.2.1 - k * 3072) := ⟨_, rfl⟩
      have hDi : min ((xm.2.1 : Int) - (k : Int) * SAMPLES) SAMPLES = (D : Int) := by unfold SAMPLES; omega
      obtain ⟨f, hf1, hf2⟩ := shufCopy_ok fmt k D (by omega) (by omega) fetch (fun c i => sig c (k * 3072 + i)) r 0 none rfl
        (by
          intro t s hs
          obtain ⟨s', x, idx, hs', hx, hxm', hn, rfl⟩ := hres t s hs
          have hcx := hcar x hxm'
          obtain ⟨g, hg1, hg2⟩ := hf s'.node k (by
            simp only [List.map_map, List.mem_map, Function.comp]
            exact ⟨_, List.mem_of_getElem? hs, rfl⟩) x.1 x.2.1 x.2.2 (hclip _ _ hx) hcx
          have hNpos := hcx.len_pos
          have hfpos := frameCount_pos hNpos
          refine ⟨g, hg1, min 3072 (x.2.1 - k * 3072), fun i => x.2.2 idx (k * 3072 + i), ?_, ?_, ?_⟩
          · simp only
            by_cases hkf : (k : Int) < x.1.ai.numFrames
            · rw [if_pos hkf, hg2.len]
              rw [hcx.frames] at hkf
              rw [show min ((k : Int)).toNat (frameCount x.2.1 - 1) = k by omega]
            · rw [if_neg hkf]
              rw [hcx.frames] at hkf
              unfold frameCount at hkf
              omega
          · intro i hi
            have hkf : k < frameCount x.2.1 := lt_frameCount (by omega)
            rw [show min ((k : Int)).toNat (frameCount x.2.1 - 1) = k by omega] at hg2
            simp only [Int.toNat_natCast]
            exact hg2.samples idx hn.1 i (by omega)
          · intro i hi
            rw [hsig, Nat.zero_add, hs']
            simp only [hx, hidx _ _ _ hx hn, Spec.padded]
            by_cases hlt : k * 3072 + i < x.2.1
            · rw [if_pos hlt, if_pos (by omega)]
            · rw [if_neg hlt, if_neg (by omega)])
      have hrl : r.length = fmt.numChannels := by rw [r2, hsl, f6, hpop, hl.sameLen]
      cases f with
      | none =>
        exfalso
        have h0 : 0 + r.length = 0 := hf2
        have := hl.enough
        omega
      | some f =>
        refine ⟨f, ?_, hf2.1, by rw [hf2.2.1, hD], ?_⟩
        · simp only [shuffleFilter, hDi]
          rw [hf1]
        · intro c hc i hi
          exact hf2.2.2 c (by rw [Nat.zero_add, hrl]; exact hc) i (by omega))
  refine ⟨out, xm.2.1, sig, by rw [hcreate]; exact o1, ⟨o2, ⟨?_, xm, hxm, rfl⟩, ?_, ?_, ?_⟩⟩
  · intro x hx
    have h1 := hmax x hx
    rw [(hcar x hx).count] at h1
    omega
  · intro b
    rw [o3]
    simp only [shuffleFilter, f5]
    exact hbit b
  · intro x hx
    have hk := hl.kind x0 hx0m x hx
    rw [o3]
    simp only [shuffleFilter, f3, f4]
    exact hk
  · intro j a b x idx ha hb hx hn p
    rw [o3]
    simp only [shuffleFilter, f5]
    have hs := n4 j a b ha hb
    have hs' : ShufNode.mk (min (inputs.length - 1) j) a b (-1) ∈ sorted := (hmem _).2 (List.mem_of_getElem? hs)
    obtain ⟨t, ht, he⟩ := List.mem_iff_getElem.1 hs'
    have hst : sorted[t]? = some (ShufNode.mk (min (inputs.length - 1) j) a b (-1)) := by
      rw [List.getElem?_eq_getElem ht, he]
    have hr := hrank t _ hst
    simp only at hr
    have hi := hidx (ShufNode.mk (min (inputs.length - 1) j) a b (-1)) x idx hx hn
    rw [hr, hsig, hst]
    simp only [hx, hi]

theorem countP_mem_le (b : Nat) : ∀ l : List Nat,
    (List.range b).countP (fun x => decide (x ∈ l)) ≤ l.length ∧
      (¬ l.Nodup → (List.range b).countP (fun x => decide (x ∈ l)) < l.length) := by
  intro l
  induction l with
  | nil => simp
  | cons a l ih =>
    by_cases ha : a ∈ l
    · have e : (fun x => decide (x ∈ a :: l)) = fun x => decide (x ∈ l) := by
        funext x
        congr 1
        simp only [List.mem_cons, eq_iff_iff, or_iff_right_iff_imp]
        intro h; rw [h]; exact ha
      rw [e, List.length_cons]
      exact ⟨by omega, fun _ => by omega⟩
    · have key : ∀ r : List Nat, r.countP (fun x => decide (x ∈ a :: l)) ≤
          r.countP (fun x => decide (x ∈ l)) + r.countP (fun x => decide (x = a)) := by
        intro r
        induction r with
        | nil => simp
        | cons y r ihr =>
          rw [List.countP_cons, List.countP_cons, List.countP_cons]
          have hP : (if decide (y ∈ a :: l) = true then 1 else 0) ≤
              (if decide (y ∈ l) = true then 1 else 0) + (if decide (y = a) = true then 1 else 0) := by
            by_cases e : y = a <;> by_cases m : y ∈ l <;> simp [e, m]
          generalize (if decide (y ∈ a :: l) = true then 1 else 0) = A at *
          generalize (if decide (y ∈ l) = true then 1 else 0) = B at *
          generalize (if decide (y = a) = true then 1 else 0) = C at *
          omega
      have h1 := key (List.range b)
      rw [countP_eq_range] at h1
      have h2 : (if a < b then 1 else 0) ≤ 1 := by split <;> omega
      rw [List.length_cons]
      refine ⟨by omega, ?_⟩
      intro hn
      have : ¬ l.Nodup := fun hl => hn (List.nodup_cons.2 ⟨ha, hl⟩)
      have := ih.2 this
      omega

/-- C37, rejection: every illegal combination of arguments is reported as an error. -/
theorem C37_shuffleChannels_reject [Zero α] (inputs : List (AClip α × Nat × Signal α)) (ins outs : List Int)
    (hne : inputs ≠ []) (hcar : ∀ x ∈ inputs, x.1.Carries x.2.1 x.2.2) (hch : ∀ x ∈ inputs, 0 < x.1.ai.format.numChannels)
    (hl : ¬ ShuffleLegal inputs ins outs) : ∃ msg, shuffleCreate (inputs.map (·.1)) ins outs = .err msg := by
  have hlen0 : 0 < inputs.length := List.length_pos_iff.2 hne
  unfold shuffleCreate
  by_cases c1 : ¬ ins.length = outs.length
  · rw [if_pos c1]; exact ⟨_, rfl⟩
  have c1 : ins.length = outs.length := Classical.byContradiction c1
  rw [if_neg (by simp [c1])]
  by_cases c2 : ¬ inputs.length ≤ ins.length
  · rw [if_pos (by simp; omega)]; exact ⟨_, rfl⟩
  have c2 : inputs.length ≤ ins.length := Classical.byContradiction c2
  rw [if_neg (by simp; omega), List.length_map]
  by_cases c3 : ((∃ x ∈ ins, x < -64 ∨ 64 ≤ x) ∨ (∃ x ∈ outs, x < 0 ∨ 64 ≤ x))
  · rw [shufArgs_reject _ _ _ _ c1 c3]; exact ⟨_, rfl⟩
  have hinr : ∀ x ∈ ins, -64 ≤ x ∧ x < 64 := by
    intro x hx
    apply Classical.byContradiction; intro h
    exact c3 (Or.inl ⟨x, hx, by omega⟩)
  have houtr : ∀ x ∈ outs, 0 ≤ x ∧ x < 64 := by
    intro x hx
    apply Classical.byContradiction; intro h
    exact c3 (Or.inr ⟨x, hx, by omega⟩)
  obtain ⟨nodes, n1, n2, n3, n4⟩ := shufArgs_ok inputs.length ins outs 0 c1 hinr houtr
  simp only [Nat.zero_add] at n4
  rw [n1]
  simp only
  obtain ⟨sorted, hsorted⟩ : ∃ sorted, sorted = nodes.mergeSort (fun a b => decide (a.dstIdx ≤ b.dstIdx)) := ⟨_, rfl⟩
  have hperm : sorted.Perm nodes := by rw [hsorted]; exact List.mergeSort_perm _ _
  have hmem : ∀ s, s ∈ sorted ↔ s ∈ nodes := fun s => hperm.mem_iff
  have hsl : sorted.length = ins.length := by rw [hperm.length_eq, n2]
  rw [← hsorted]
  have hnode : ∀ s ∈ nodes, ∃ j a b, ins[j]? = some a ∧ outs[j]? = some b ∧
      s = ⟨min (inputs.length - 1) j, a, b, -1⟩ := by
    intro s hs
    obtain ⟨j, hj, rfl⟩ := List.mem_iff_getElem.1 hs
    have hj1 : j < ins.length := by omega
    have hj2 : j < outs.length := by omega
    refine ⟨j, ins[j], outs[j], by simp [hj1], by simp [hj2], ?_⟩
    have := n4 j ins[j] outs[j] (by simp [hj1]) (by simp [hj2])
    rw [List.getElem?_eq_getElem hj] at this
    exact Option.some.inj this
  have hlt : ∀ s ∈ sorted, s.node < (inputs.map (·.1)).length := by
    intro s hs
    obtain ⟨j, a, b, -, -, rfl⟩ := hnode s ((hmem s).1 hs)
    simp; omega
  cases hss : sorted with
  | nil => rw [hss] at hsl; simp at hsl; omega
  | cons s0 srest =>
    rw [← hss, show sorted.head? = some s0 by rw [hss]; rfl]
    have hs0 := hlt s0 (by rw [hss]; simp)
    rw [List.length_map] at hs0
    obtain ⟨x0, hx0⟩ : ∃ x0, inputs[s0.node]? = some x0 := ⟨inputs[s0.node], by simp [hs0]⟩
    have hx0m := List.mem_of_getElem? hx0
    have hclip : ∀ (i : Nat) x, inputs[i]? = some x → (inputs.map (·.1))[i]? = some x.1 := by
      intro i x h; simp [h]
    simp only [hclip _ _ hx0]
    by_cases c4 : ∃ s ∈ sorted, ∃ c, (inputs.map (·.1))[s.node]? = some c ∧ (¬ (c.ai.sampleRate = x0.1.ai.sampleRate ∧
        c.ai.format.bitsPerSample = x0.1.ai.format.bitsPerSample ∧ c.ai.format.sampleType = x0.1.ai.format.sampleType) ∨
        resolveChannel c.ai.format s.idx = none)
    · obtain ⟨msg, hm⟩ := shufResolve_reject_rate x0.1.ai (inputs.map (·.1)) sorted x0.1.ai.numSamples hlt c4
      rw [hm]; exact ⟨msg, rfl⟩
    · have hgood : ∀ (j : Nat) (a : Int) (x : AClip α × Nat × Signal α), ins[j]? = some a →
          inputs[min (inputs.length - 1) j]? = some x →
          (x.1.ai.sampleRate = x0.1.ai.sampleRate ∧ x.1.ai.format.bitsPerSample = x0.1.ai.format.bitsPerSample ∧
            x.1.ai.format.sampleType = x0.1.ai.format.sampleType) ∧ resolveChannel x.1.ai.format a ≠ none := by
        intro j a x ha hx
        have hj : j < outs.length := by
          have := (List.getElem?_eq_some_iff.1 ha).1; omega
        have hs := (hmem _).2 (List.mem_of_getElem? (n4 j a outs[j] ha (by simp [hj])))
        apply Classical.byContradiction
        intro hno
        apply c4
        refine ⟨_, hs, x.1, hclip _ _ hx, ?_⟩
        by_cases h1 : (x.1.ai.sampleRate = x0.1.ai.sampleRate ∧ x.1.ai.format.bitsPerSample = x0.1.ai.format.bitsPerSample ∧
            x.1.ai.format.sampleType = x0.1.ai.format.sampleType)
        · right
          apply Classical.byContradiction
          intro h2
          exact hno ⟨h1, h2⟩
        · left; exact h1
      have hkind0 : ∀ x ∈ inputs, x.1.ai.sampleRate = x0.1.ai.sampleRate ∧
          x.1.ai.format.bitsPerSample = x0.1.ai.format.bitsPerSample ∧
          x.1.ai.format.sampleType = x0.1.ai.format.sampleType := by
        intro x hx
        obtain ⟨j, hj, rfl⟩ := List.mem_iff_getElem.1 hx
        have hj1 : j < ins.length := by omega
        refine (hgood j ins[j] inputs[j] (by simp [hj1]) ?_).1
        rw [show min (inputs.length - 1) j = j by omega]
        simp [hj]
      have hnd : ¬ outs.Nodup := by
        intro hnd
        apply hl
        refine ⟨c1, c2, hinr, houtr, hnd, ?_, ?_⟩
        · intro x hx y hy
          have h1 := hkind0 x hx
          have h2 := hkind0 y hy
          exact ⟨h1.1.trans h2.1.symm, h1.2.1.trans h2.2.1.symm, h1.2.2.trans h2.2.2.symm⟩
        · intro j a x ha hx
          have hxm := List.mem_of_getElem? hx
          apply Classical.byContradiction
          intro hno
          apply (hgood j a x ha hx).2
          exact resolve_of_not_names (hcar x hxm).info (hch x hxm)
            (hinr a (List.mem_of_getElem? ha)).2 (fun idx hidx => hno ⟨idx, hidx⟩)
      cases hr : shufResolve x0.1.ai (inputs.map (·.1)) sorted x0.1.ai.numSamples with
      | err m => exact ⟨m, rfl⟩
      | fatal m =>
        exfalso
        have : ∀ (l : List ShufNode) (acc : Int), shufResolve x0.1.ai (inputs.map (·.1)) l acc ≠ .fatal m := by
          intro l
          induction l with
          | nil => intro acc h; simp [shufResolve] at h
          | cons s l ih =>
            intro acc h
            unfold shufResolve at h
            split at h
            · cases h
            · split at h
              · cases h
              · split at h
                · cases h
                · rename_i c _ _ _ _ _
                  have := ih (max acc c.ai.numSamples)
                  cases hq : shufResolve x0.1.ai (inputs.map (·.1)) l (max acc c.ai.numSamples) with
                  | ok v => rw [hq] at h; cases h
                  | err v => rw [hq] at h; cases h
                  | ub => rw [hq] at h; cases h
                  | fatal v => rw [hq] at h; cases h; exact this hq
        exact this _ _ hr
      | ub =>
        exfalso
        have : ∀ (l : List ShufNode) (acc : Int), (∀ s ∈ l, s.node < (inputs.map (·.1)).length) →
            shufResolve x0.1.ai (inputs.map (·.1)) l acc ≠ .ub := by
          intro l
          induction l with
          | nil => intro acc _ h; simp [shufResolve] at h
          | cons s l ih =>
            intro acc hb h
            unfold shufResolve at h
            split at h
            · rename_i hnone
              have := hb s (by simp)
              rw [List.getElem?_eq_getElem this] at hnone
              cases hnone
            · split at h
              · cases h
              · split at h
                · cases h
                · rename_i c _ _ _ _ _
                  have := ih (max acc c.ai.numSamples) (fun z hz => hb z (by simp [hz]))
                  cases hq : shufResolve x0.1.ai (inputs.map (·.1)) l (max acc c.ai.numSamples) with
                  | ok v => rw [hq] at h; cases h
                  | err v => rw [hq] at h; cases h
                  | fatal v => rw [hq] at h; cases h
                  | ub => exact this hq
        exact this _ _ hlt hr
      | ok r =>
        simp only [Res.bind]
        split
        · exact ⟨_, rfl⟩
        · rename_i fmt hq
          have hnum : fmt.numChannels = popcount (shufLayout nodes) := by
            unfold queryAudioFormat at hq
            split at hq
            · cases hq
            · cases hq; rfl
          rw [if_pos]
          · exact ⟨_, rfl⟩
          · rw [hnum]
            unfold popcount
            have e : (shufLayout nodes).testBit = fun b => decide (b ∈ nodes.map (·.dstIdx.toNat)) := by
              funext b; exact shufLayout_testBit nodes b
            rw [e]
            have hlt := (countP_mem_le 64 (nodes.map (·.dstIdx.toNat))).2 (by
              intro hnod
              apply hnd
              rw [← n3]
              have p := List.pairwise_map.1 hnod
              apply List.pairwise_map.2
              apply p.imp
              intro a b hab h
              apply hab
              rw [h])
            rw [List.length_map] at hlt
            omega

/-! ## SplitChannels -/

theorem layoutChannels_mem {layout b : Nat} : b ∈ layoutChannels layout ↔ b < 64 ∧ layout.testBit b = true := by
  simp [layoutChannels]

theorem layoutChannels_sorted (layout : Nat) : (layoutChannels layout).Pairwise (· < ·) :=
  List.Pairwise.filter _ List.pairwise_lt_range

theorem layoutChannels_length (layout : Nat) : (layoutChannels layout).length = popcount layout := by
  unfold layoutChannels popcount; rw [List.countP_eq_length_filter]

theorem layoutChannels_rank {layout t b : Nat} (h : (layoutChannels layout)[t]? = some b) : Spec.rank layout b = t := by
  have hb := layoutChannels_mem.1 (List.mem_of_getElem? h)
  rw [rank_eq, ← countP_sorted (layoutChannels_sorted layout) h]
  have hnd : (layoutChannels layout).Nodup := (layoutChannels_sorted layout).imp (fun h => by omega)
  rw [← countP_mem_range b _ hnd]
  unfold chanIndex
  apply List.countP_congr
  intro x hx
  have := List.mem_range.1 hx
  rw [decide_eq_true_eq, layoutChannels_mem]
  constructor
  · intro h; exact ⟨by omega, h⟩
  · intro h; exact h.2

theorem rank_inj {layout a b : Nat} (ha : a < 64) (hb : b < 64) (h1 : layout.testBit a = true) (h2 : layout.testBit b = true)
    (h : Spec.rank layout a = Spec.rank layout b) : a = b := by
  obtain ⟨i, hi, ea⟩ := List.mem_iff_getElem.1 (layoutChannels_mem.2 ⟨ha, h1⟩)
  obtain ⟨j, hj, eb⟩ := List.mem_iff_getElem.1 (layoutChannels_mem.2 ⟨hb, h2⟩)
  have r1 := layoutChannels_rank (layout := layout) (t := i) (b := a) (by rw [List.getElem?_eq_getElem hi, ea])
  have r2 := layoutChannels_rank (layout := layout) (t := j) (b := b) (by rw [List.getElem?_eq_getElem hj, eb])
  have e : i = j := by omega
  subst e
  rw [← ea, ← eb]

/-- C37. `SplitChannels` returns one clip per channel; the `t`-th holds channel `t`, unchanged, and its layout is exactly
that channel. -/
theorem C37_splitChannels [Zero α] (clip : AClip α) (N : Nat) (sig : Signal α) (h : clip.Carries N sig) :
    (splitChannels clip).length = clip.ai.format.numChannels ∧
    ∀ t, t < clip.ai.format.numChannels → ∃ out, (splitChannels clip)[t]? = some (.ok out) ∧
      out.Carries N (fun _ => sig t) ∧ out.ai.format.numChannels = 1 ∧
      (∀ b, b < 64 → (out.ai.format.channelLayout.testBit b = true ↔
        clip.ai.format.channelLayout.testBit b = true ∧ Spec.rank clip.ai.format.channelLayout b = t)) ∧
      out.ai.sampleRate = clip.ai.sampleRate ∧ out.ai.format.bitsPerSample = clip.ai.format.bitsPerSample ∧
      out.ai.format.sampleType = clip.ai.format.sampleType := by
  have hpc := valid_popcount h.info
  unfold splitChannels
  by_cases h1 : clip.ai.format.numChannels = 1
  · rw [if_pos h1]
    refine ⟨by simp [h1], ?_⟩
    intro t ht
    have ht0 : t = 0 := by omega
    subst ht0
    refine ⟨clip, by simp, ?_, h1, ?_, rfl, rfl, rfl⟩
    · refine ⟨h.info, h.count, h.range, h.frames, ?_⟩
      intro k hk
      obtain ⟨f, f1, f2, f3, f4⟩ := h.content k hk
      refine ⟨f, f1, f2, f3, ?_⟩
      intro c hc i hi
      have hc0 : c = 0 := by omega
      subst hc0
      exact f4 0 hc i hi
    · intro b hb
      constructor
      · intro ht
        refine ⟨ht, ?_⟩
        have := rank_lt hb ht
        omega
      · intro h; exact h.1
  · rw [if_neg h1]
    refine ⟨by rw [List.length_map, layoutChannels_length, hpc], ?_⟩
    intro t ht
    have htl : t < (layoutChannels clip.ai.format.channelLayout).length := by rw [layoutChannels_length]; omega
    obtain ⟨b, hb⟩ : ∃ b, (layoutChannels clip.ai.format.channelLayout)[t]? = some b :=
      ⟨_, List.getElem?_eq_getElem htl⟩
    have hbm := layoutChannels_mem.1 (List.mem_of_getElem? hb)
    have hbr := layoutChannels_rank hb
    have hnames : ∃ idx, Spec.Names clip.ai.format (b : Int) idx ∧ idx = t := by
      refine ⟨t, ⟨ht, ?_⟩, rfl⟩
      rw [if_neg (by omega)]
      by_cases hb0 : (b : Int) = 0
      · rw [if_pos hb0]
        have : b = 0 := by omega
        subst this
        rw [← hbr]; rfl
      · rw [if_neg hb0, Int.toNat_natCast]
        exact ⟨hbm.2, hbr.symm⟩
    obtain ⟨idx, hn, hidx⟩ := hnames
    subst hidx
    obtain ⟨out, M, s, o1, o2⟩ := C37_shuffleChannels [(clip, N, sig)] [(b : Int)] [(b : Int)] (by simp)
      (by intro x hx; simp at hx; subst hx; exact h) (by
        refine ⟨rfl, by simp, ?_, ?_, by simp, ?_, ?_⟩
        · intro x hx; simp at hx; omega
        · intro x hx; simp at hx; omega
        · intro x hx y hy; simp at hx hy; subst hx hy; simp
        · intro j a x ha hx
          have hj : j = 0 := by
            have := (List.getElem?_eq_some_iff.1 ha).1; simpa using this
          subst hj
          simp at ha hx
          subst ha hx
          exact ⟨_, hn⟩)
    have hMN : M = N := by
      obtain ⟨x, hx, e⟩ := o2.longest.2
      simp at hx; subst hx; exact e
    subst hMN
    have hk := o2.kind (clip, M, sig) (by simp)
    have hlay : ∀ c : Nat, out.ai.format.channelLayout.testBit c = true ↔ c = b := by
      intro c; rw [o2.layout c]; simp; omega
    have hrank0 : Spec.rank out.ai.format.channelLayout b = 0 := by
      unfold Spec.rank
      rw [List.length_eq_zero_iff, List.filter_eq_nil_iff]
      intro c hc
      have := List.mem_range.1 hc
      rw [hlay]; omega
    have hnc : out.ai.format.numChannels = 1 := by
      rw [valid_popcount o2.carries.info]
      unfold popcount
      have e : out.ai.format.channelLayout.testBit = fun x => decide (x = b) := by
        funext x
        have := hlay x
        by_cases ex : x = b
        · simp [ex, (hlay b).2 rfl]
        · simp only [ex, decide_false]
          cases hh : out.ai.format.channelLayout.testBit x with
          | false => rfl
          | true => exact absurd (this.1 hh) ex
      rw [e, countP_eq_range, if_pos hbm.1]
    refine ⟨out, ?_, ?_, hnc, ?_, hk.1, hk.2.1, hk.2.2⟩
    · rw [List.getElem?_map, hb]
      simp only [Option.map_some, Option.some.injEq]
      exact o1
    · refine ⟨o2.carries.info, o2.carries.count, o2.carries.range, o2.carries.frames, ?_⟩
      intro k hk
      obtain ⟨f, f1, f2, f3, f4⟩ := o2.carries.content k hk
      refine ⟨f, f1, f2, f3, ?_⟩
      intro c hc i hi
      have hc0 : c = 0 := by omega
      subst hc0
      rw [f4 0 hc i hi]
      have := o2.channels 0 b b (clip, M, sig) idx rfl rfl (by simp) hn (k * 3072 + i)
      rw [Int.toNat_natCast, hrank0] at this
      rw [this]
      simp only [Spec.padded]
      rw [if_pos (by omega)]
    · intro c hc
      rw [hlay]
      constructor
      · intro e; subst e; exact ⟨hbm.2, hbr⟩
      · rintro ⟨e1, e2⟩
        exact rank_inj hc hbm.1 e1 hbm.2 (by rw [e2, hbr])

/-- C37. Splitting and recombining gives back the input: same layout, same samples. -/
theorem C37_split_then_shuffle [Zero α] (clip : AClip α) (N : Nat) (sig : Signal α) (h : clip.Carries N sig)
    (h64 : clip.ai.format.channelLayout < 2 ^ 64) (parts : List (AClip α)) (hp : splitChannels clip = parts.map .ok) :
    ∃ out, shuffleCreate parts ((layoutChannels clip.ai.format.channelLayout).map fun c : Nat => (c : Int))
        ((layoutChannels clip.ai.format.channelLayout).map fun c : Nat => (c : Int)) = .ok out ∧
      out.Carries N sig ∧ out.ai.format.channelLayout = clip.ai.format.channelLayout ∧
      out.ai.sampleRate = clip.ai.sampleRate := by
  obtain ⟨hlen, hsplit⟩ := C37_splitChannels clip N sig h
  rw [hp, List.length_map] at hlen
  have hpc := valid_popcount h.info
  have hcl := layoutChannels_length clip.ai.format.channelLayout
  generalize hch : layoutChannels clip.ai.format.channelLayout = chans at *
  -- what each part carries
  have hpart : ∀ (t : Nat) (c : AClip α), parts[t]? = some c → t < clip.ai.format.numChannels ∧
      c.Carries N (fun _ => sig t) ∧ c.ai.format.numChannels = 1 ∧
      (∀ b, b < 64 → (c.ai.format.channelLayout.testBit b = true ↔
        clip.ai.format.channelLayout.testBit b = true ∧ Spec.rank clip.ai.format.channelLayout b = t)) ∧
      c.ai.sampleRate = clip.ai.sampleRate ∧ c.ai.format.bitsPerSample = clip.ai.format.bitsPerSample ∧
      c.ai.format.sampleType = clip.ai.format.sampleType := by
    intro t c hc
    have ht : t < clip.ai.format.numChannels := by
      have := (List.getElem?_eq_some_iff.1 hc).1; omega
    obtain ⟨out, e, rest⟩ := hsplit t ht
    rw [hp, List.getElem?_map, hc] at e
    simp at e
    subst e
    exact ⟨ht, rest⟩
  obtain ⟨inputs, hin⟩ : ∃ inputs : List (AClip α × Nat × Signal α),
      inputs = parts.zipIdx.map (fun x : AClip α × Nat => (x.1, N, fun _ => sig x.2)) := ⟨_, rfl⟩
  have hinl : inputs.length = parts.length := by rw [hin]; simp
  have hin1 : inputs.map (·.1) = parts := by
    rw [hin, List.map_map]
    exact List.zipIdx_map_fst 0 parts
  have hget : ∀ (t : Nat) x, inputs[t]? = some x → parts[t]? = some x.1 ∧ x.2.1 = N ∧ x.2.2 = fun _ => sig t := by
    intro t x hx
    rw [hin, List.getElem?_map, List.getElem?_zipIdx] at hx
    cases hpt : parts[t]? with
    | none => rw [hpt] at hx; simp at hx
    | some c =>
      rw [hpt] at hx
      simp at hx
      subst hx
      exact ⟨rfl, rfl, rfl⟩
  have hmemget : ∀ x ∈ inputs, ∃ t : Nat, inputs[t]? = some x := by
    intro x hx
    obtain ⟨t, ht, e⟩ := List.mem_iff_getElem.1 hx
    exact ⟨t, by rw [List.getElem?_eq_getElem ht, e]⟩
  have hcar : ∀ x ∈ inputs, x.1.Carries x.2.1 x.2.2 := by
    intro x hx
    obtain ⟨t, ht⟩ := hmemget x hx
    obtain ⟨e1, e2, e3⟩ := hget t x ht
    rw [e2, e3]
    exact (hpart t x.1 e1).2.1
  have hkd : ∀ x ∈ inputs, x.1.ai.sampleRate = clip.ai.sampleRate ∧ x.1.ai.format.bitsPerSample = clip.ai.format.bitsPerSample ∧
      x.1.ai.format.sampleType = clip.ai.format.sampleType := by
    intro x hx
    obtain ⟨t, ht⟩ := hmemget x hx
    exact (hpart t x.1 (hget t x ht).1).2.2.2.2
  have hnpos : 0 < clip.ai.format.numChannels := by
    rw [hpc, ← hcl]
    apply Classical.byContradiction
    intro hz
    have : chans = [] := List.eq_nil_iff_length_eq_zero.2 (by omega)
    -- a non-zero 64 bit layout has a bit
    have hz : clip.ai.format.channelLayout = 0 := by
      apply Nat.eq_of_testBit_eq
      intro b
      rw [Nat.zero_testBit]
      cases hh : clip.ai.format.channelLayout.testBit b with
      | false => rfl
      | true =>
        exfalso
        have hb : b < 64 := by
          apply Classical.byContradiction
          intro hge
          have := Nat.testBit_lt_two_pow (x := clip.ai.format.channelLayout) (i := b)
            (Nat.lt_of_lt_of_le h64 (Nat.pow_le_pow_right (by decide) (by omega)))
          rw [this] at hh; cases hh
        have := layoutChannels_mem.2 ⟨hb, hh⟩
        rw [hch, ‹chans = []›] at this
        simp at this
    have hv := h.info
    unfold isValidAudioInfo isValidAudioFormat isValidFormatArgs at hv
    simp [hz] at hv
  have hmin : ∀ j, j < chans.length → min (inputs.length - 1) j = j := by
    intro j hj; rw [hinl, hlen]; omega
  have hnm : ∀ (j b : Nat) (x : AClip α × Nat × Signal α), chans[j]? = some b → inputs[j]? = some x →
      Spec.Names x.1.ai.format (b : Int) 0 := by
    intro j b x hb hx
    have hbm := layoutChannels_mem.1 (List.mem_of_getElem? (hch ▸ hb))
    have hbr := layoutChannels_rank (hch ▸ hb)
    obtain ⟨-, -, e3, e4, -⟩ := hpart j x.1 (hget j x hx).1
    refine ⟨by omega, ?_⟩
    rw [if_neg (by omega)]
    by_cases hb0 : (b : Int) = 0
    · rw [if_pos hb0]
    · rw [if_neg hb0, Int.toNat_natCast]
      refine ⟨(e4 b hbm.1).2 ⟨hbm.2, hbr⟩, ?_⟩
      symm
      unfold Spec.rank
      rw [List.length_eq_zero_iff, List.filter_eq_nil_iff]
      intro c hc
      have hcb := List.mem_range.1 hc
      intro hct
      have := (e4 c (by omega)).1 hct
      have := rank_inj (by omega) hbm.1 this.1 hbm.2 (this.2.trans hbr.symm)
      omega
  obtain ⟨out, M, s, o1, o2⟩ := C37_shuffleChannels inputs (chans.map fun c : Nat => (c : Int))
    (chans.map fun c : Nat => (c : Int)) (by intro e; rw [e] at hinl; simp at hinl; omega) hcar (by
      refine ⟨rfl, by simp; omega, ?_, ?_, ?_, ?_, ?_⟩
      · intro x hx
        obtain ⟨c, hc, rfl⟩ := List.mem_map.1 hx
        have := layoutChannels_mem.1 (hch ▸ hc)
        omega
      · intro x hx
        obtain ⟨c, hc, rfl⟩ := List.mem_map.1 hx
        have := layoutChannels_mem.1 (hch ▸ hc)
        omega
      · apply List.pairwise_map.2
        rw [← hch]
        apply (layoutChannels_sorted _).imp
        intro a b hab; omega
      · intro x hx y hy
        have h1 := hkd x hx
        have h2 := hkd y hy
        exact ⟨h1.1.trans h2.1.symm, h1.2.1.trans h2.2.1.symm, h1.2.2.trans h2.2.2.symm⟩
      · intro j a x ha hx
        rw [List.getElem?_map] at ha
        obtain ⟨b, hb, rfl⟩ := Option.map_eq_some_iff.1 ha
        rw [hmin j (List.getElem?_eq_some_iff.1 hb).1] at hx
        exact ⟨0, hnm j b x hb hx⟩)
  rw [hin1] at o1
  have hMN : M = N := by
    obtain ⟨x, hx, e⟩ := o2.longest.2
    obtain ⟨t, ht⟩ := hmemget x hx
    rw [e, (hget t x ht).2.1]
  subst hMN
  have hlayout : out.ai.format.channelLayout = clip.ai.format.channelLayout := by
    apply Nat.eq_of_testBit_eq
    intro b
    rw [Bool.eq_iff_iff, o2.layout b, List.mem_map, ← hch]
    constructor
    · rintro ⟨c, hc, e⟩
      have : c = b := by omega
      subst this
      exact (layoutChannels_mem.1 hc).2
    · intro hb
      refine ⟨b, layoutChannels_mem.2 ⟨?_, hb⟩, rfl⟩
      apply Classical.byContradiction
      intro hge
      have := Nat.testBit_lt_two_pow (x := clip.ai.format.channelLayout) (i := b)
        (Nat.lt_of_lt_of_le h64 (Nat.pow_le_pow_right (by decide) (by omega)))
      rw [this] at hb; cases hb
  refine ⟨out, o1, ?_, hlayout, ?_⟩
  · refine ⟨o2.carries.info, o2.carries.count, o2.carries.range, o2.carries.frames, ?_⟩
    intro k hk
    obtain ⟨f, f1, f2, f3, f4⟩ := o2.carries.content k hk
    refine ⟨f, f1, f2, f3, ?_⟩
    intro c hc i hi
    rw [f4 c hc i hi]
    have hc' : c < clip.ai.format.numChannels := by
      rw [hpc, ← hlayout, ← valid_popcount o2.carries.info]; exact hc
    have hcc : c < chans.length := by omega
    have hci : c < inputs.length := by omega
    have hb : chans[c]? = some chans[c] := by simp [hcc]
    have hx : inputs[c]? = some inputs[c] := by simp [hci]
    have := o2.channels c chans[c] chans[c] inputs[c] 0 (by simp [hcc]) (by simp [hcc]) (by rw [hmin c hcc]; exact hx)
      (hnm c _ _ hb hx) (k * 3072 + i)
    have hrk : Spec.rank clip.ai.format.channelLayout chans[c] = c := by
      apply layoutChannels_rank
      rw [hch]; exact hb
    rw [Int.toNat_natCast, hlayout, hrk] at this
    rw [this, (hget c _ hx).2.1, (hget c _ hx).2.2]
    simp only [Spec.padded]
    rw [if_pos (by omega)]
  · have hi0 : 0 < inputs.length := by omega
    have hm := List.getElem_mem hi0
    rw [(o2.kind _ hm).1, (hkd _ hm).1]


end VS.Audio
