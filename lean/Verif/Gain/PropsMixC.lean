import Verif.Gain.PropsMix

/-!
# C90: AudioMix, the theorems
-/

namespace VS.Gain

set_option maxRecDepth 10000

open VS VS.Audio

theorem given_of_carries {inputs : List (AClip Int × Signal Int)} {N : Nat} {outs : List Int} (hi : inputs ≠ []) (ho : outs ≠ [])
    (hc : ∀ x ∈ inputs, x.1.Carries N x.2 ∧ 0 < x.1.ai.format.numChannels) (hs : outs.length * Spec.total inputs < 2 ^ 31) :
    Spec.MixGiven inputs N outs :=
  ⟨hi, ho, fun x hx => ⟨N, (hc x hx).1, fun _ => rfl⟩, fun x hx => (hc x hx).2, hs⟩

theorem mem_channels {inputs : List (AClip Int × Signal Int)} {p : Nat} {y : Int} (h : y ∈ Spec.channels inputs p) :
    ∃ x ∈ inputs, ∃ c, c < x.1.ai.format.numChannels ∧ y = x.2 c p := by
  unfold Spec.channels at h
  rw [List.mem_flatMap] at h
  obtain ⟨x, hx, h⟩ := h
  simp only [List.mem_map, List.mem_range] at h
  obtain ⟨c, hc, e⟩ := h
  exact ⟨x, hx, c, hc, e.symm⟩

theorem channels_length (inputs : List (AClip Int × Signal Int)) (p : Nat) : (Spec.channels inputs p).length = Spec.total inputs := by
  unfold Spec.channels Spec.total
  rw [List.length_flatMap]
  simp

theorem mem_row {matrix : List Nat} {K j b : Nat} (h : b ∈ Spec.row matrix K j) : b ∈ matrix :=
  List.mem_of_mem_drop (List.mem_of_mem_take h)

/-- Integer samples and finite weights that are not enormous: every output sample is the weighted sum. -/
theorem C90_mix (F : DFloats) (inputs : List (AClip Int × Signal Int)) (N : Nat) (matrix : List Nat) (outs : List Int)
    (hi : inputs ≠ []) (ho : outs ≠ []) (hc : ∀ x ∈ inputs, x.1.Carries N x.2 ∧ 0 < x.1.ai.format.numChannels)
    (hs : outs.length * Spec.total inputs < 2 ^ 31) (hl : Spec.MixLegal inputs matrix outs)
    (hint : ∀ x ∈ inputs, x.1.ai.format.sampleType = 0)
    (hx : ∀ x ∈ inputs, ∀ c p, c < x.1.ai.format.numChannels → p < N → |x.2 c p| ≤ 2 ^ 31)
    (w : Nat → Rat) (hw : ∀ b ∈ matrix, Dbl.ofBits b = .fin (w b) ∧ |w b| ≤ 2 ^ 900) (oe : Option Int) (warned : Int → Bool) :
    ∃ out sig' clipS, audioMixCreate F (inputs.map (·.1)) matrix outs oe warned = .ok out ∧ Spec.MixInfo inputs outs N out ∧
      (∀ j b, outs[j]? = some b → ∀ p, p < N →
        Spec.Mixed out.ai.format (((Spec.channels inputs p).zip (Spec.row matrix (Spec.total inputs) j)).map fun q => (q.1, w q.2))
          (sig' (Audio.Spec.rank out.ai.format.channelLayout b.toNat) p)
          (clipS (Audio.Spec.rank out.ai.format.channelLayout b.toNat) p)) ∧
      Spec.Delivers "AudioMix" out N sig' clipS (decide (oe.getD 0 ≠ 0)) warned := by
  have hgiv := given_of_carries hi ho hc hs
  -- formats with the same bits behave the same
  obtain ⟨x0, hx0⟩ := List.exists_mem_of_ne_nil _ hi
  have hf0 := valid_bytes (hc x0 hx0).1.info
  have hsum : ∀ j p, ∃ oc : Int × Bool, p < N →
      (quantizeIntSample F (mixSum F ((Spec.channels inputs p).zip (Spec.row matrix (Spec.total inputs) j)))
        (intSampleRange x0.1.ai.format)).2 = oc.2 ∧
      (quantizeIntSample F (mixSum F ((Spec.channels inputs p).zip (Spec.row matrix (Spec.total inputs) j)))
        (intSampleRange x0.1.ai.format)).1.toInt x0.1.ai.format.bytesPerSample = .ok oc.1 ∧
      Spec.Mixed x0.1.ai.format (valued w ((Spec.channels inputs p).zip (Spec.row matrix (Spec.total inputs) j))) oc.1 oc.2 := by
    intro j p
    by_cases hp : p < N
    case neg => exact ⟨(0, false), fun h => absurd h hp⟩
    obtain ⟨o, c, h1, h2, h3⟩ := mixed_exists F hf0 w ((Spec.channels inputs p).zip (Spec.row matrix (Spec.total inputs) j)) (by
      rintro ⟨y, b⟩ hq
      obtain ⟨q1, q2⟩ := List.of_mem_zip hq
      obtain ⟨x, hxm, c, hcc, e⟩ := mem_channels q1
      have hb := hw b (mem_row q2)
      refine ⟨hb.1, ?_⟩
      rw [abs_mul]
      have h1 : |(y : Rat)| ≤ 2 ^ 31 := by
        have := hx x hxm c p hcc hp
        rw [← e] at this
        exact_mod_cast this
      calc |(y : Rat)| * |w b| ≤ 2 ^ 31 * 2 ^ 900 := mul_le_mul h1 hb.2 (abs_nonneg _) (by positivity)
        _ = 2 ^ 931 := by rw [← pow_add]) (by
      have ho' : 1 ≤ outs.length := List.length_pos_iff.2 ho
      have : Spec.total inputs ≤ outs.length * Spec.total inputs := Nat.le_mul_of_pos_left _ ho'
      rw [List.length_zip, channels_length]
      omega)
    exact ⟨(o, c), fun _ => ⟨h1, h2, h3⟩⟩
  have hsum' : ∀ jp : Nat × Nat, ∃ oc : Int × Bool, _ := fun jp => hsum jp.1 jp.2
  obtain ⟨of, hof⟩ := Classical.axiomOfChoice hsum'
  have hbytes : ∀ fmt : AudioFormat, IntFormat fmt → fmt.bitsPerSample = x0.1.ai.format.bitsPerSample →
      fmt.bytesPerSample = x0.1.ai.format.bytesPerSample ∧ intSampleRange fmt = intSampleRange x0.1.ai.format ∧
      ∀ t o c, Spec.Mixed x0.1.ai.format t o c → Spec.Mixed fmt t o c := by
    intro fmt hf hb
    have hby : fmt.bytesPerSample = x0.1.ai.format.bytesPerSample := by rw [hf.bytes, hf0.bytes, hb]
    have hq : ∀ v o c, Spec.Quantised x0.1.ai.format v o c → Spec.Quantised fmt v o c := by
      intro v o c h
      unfold Spec.Quantised Spec.step Spec.half at *
      rw [hb]; exact h
    refine ⟨hby, by unfold intSampleRange; rw [hby, hb], ?_⟩
    intro t o c h
    obtain ⟨v, h1, h2⟩ := h.close
    exact ⟨⟨v, h1, hq _ _ _ h2⟩, fun ts e a b d => hq _ _ _ (h.exact ts e a b d)⟩
  obtain ⟨out, sig', clipS, o1, o2, o3, o4⟩ := mix_frames F inputs N matrix outs hgiv (fun x hx => (hc x hx).1.count) hl oe warned
    (fun j p => (of (j, p)).1) (fun j p => (of (j, p)).2) (by
    intro fmt srcs j i p hf hb hj hp ht
    obtain ⟨h1, h2, -⟩ := hof (j, p) hp
    obtain ⟨b1, b2, -⟩ := hbytes fmt hf (hb x0 hx0).1
    unfold mixSample
    rw [ht]
    simp only [Res.bind_ok]
    rw [if_neg (by rw [(hb x0 hx0).2, hint x0 hx0]; decide), b1, b2, h2, h1]
    rfl)
  refine ⟨out, sig', clipS, o1, o2, ?_, o4⟩
  intro j b hb p hp
  obtain ⟨e1, e2⟩ := o3 j b hb p hp
  rw [e1, e2]
  exact (hbytes out.ai.format (valid_bytes o2.valid) (o2.kind x0 hx0).2.1).2.2 _ _ _ (hof (j, p) hp).2.2

/-- Every channel of the result is one of the given ones. -/
theorem out_channel {inputs : List (AClip Int × Signal Int)} {outs : List Int} {N : Nat} {out : AClip Int}
    (h : Spec.MixInfo inputs outs N out) {c : Nat} (hc : c < out.ai.format.numChannels) :
    ∃ (j : Nat) (b : Int), outs[j]? = some b ∧ Audio.Spec.rank out.ai.format.channelLayout b.toNat = c := by
  rw [valid_popcount h.valid, ← layoutChannels_length] at hc
  have hg := List.getElem?_eq_getElem hc
  have hb := layoutChannels_mem.1 (List.mem_of_getElem? hg)
  have hm := (h.layout _).1 hb.2
  obtain ⟨j, hj, ej⟩ := List.mem_iff_getElem.1 hm
  refine ⟨j, outs[j], List.getElem?_eq_getElem hj, ?_⟩
  rw [ej]
  simp only [Int.toNat_natCast]
  exact layoutChannels_rank hg

/-- Float samples: every sample is what the sum and its conversion give; nothing is clipped and nothing fails. -/
theorem C90_mix_float (F : DFloats) (inputs : List (AClip Int × Signal Int)) (N : Nat) (matrix : List Nat) (outs : List Int)
    (hi : inputs ≠ []) (ho : outs ≠ []) (hc : ∀ x ∈ inputs, x.1.Carries N x.2 ∧ 0 < x.1.ai.format.numChannels)
    (hs : outs.length * Spec.total inputs < 2 ^ 31) (hl : Spec.MixLegal inputs matrix outs)
    (hflt : ∀ x ∈ inputs, x.1.ai.format.sampleType = 1) (oe : Option Int) (warned : Int → Bool) :
    ∃ out sig', audioMixCreate F (inputs.map (·.1)) matrix outs oe warned = .ok out ∧ Spec.MixInfo inputs outs N out ∧
      out.Carries N sig' ∧
      ∀ j b, outs[j]? = some b → ∀ p, p < N → sig' (Audio.Spec.rank out.ai.format.channelLayout b.toNat) p =
        F.mixF ((Spec.channels inputs p).zip (Spec.row matrix (Spec.total inputs) j)) := by
  have hgiv := given_of_carries hi ho hc hs
  obtain ⟨x0, hx0⟩ := List.exists_mem_of_ne_nil _ hi
  obtain ⟨out, sig', clipS, o1, o2, o3, o4⟩ := mix_frames F inputs N matrix outs hgiv (fun x hx => (hc x hx).1.count) hl oe warned
    (fun j p => F.mixF ((Spec.channels inputs p).zip (Spec.row matrix (Spec.total inputs) j))) (fun j p => false) (by
    intro fmt srcs j i p hf hb hj hp ht
    unfold mixSample
    rw [ht]
    simp only [Res.bind_ok]
    rw [if_pos (by rw [(hb x0 hx0).2, hflt x0 hx0])]
    rfl)
  refine ⟨out, sig', o1, o2, ⟨o2.valid, o2.length.1, (hc x0 hx0).1.range, o2.length.2, ?_⟩, fun j b hb p hp => (o3 j b hb p hp).1⟩
  intro k hk
  refine o4.ok k hk (Or.inl ?_)
  rintro ⟨c, p, h1, h2, -, h3⟩
  obtain ⟨j, b, hb, e⟩ := out_channel o2 h1
  rw [← e, (o3 j b hb p h2).2] at h3
  cases h3

/-- Arguments that do not fit together are refused: channel numbers out of range or given twice, a wrong number of weights,
inputs of different kinds. -/
theorem C90_arguments (F : DFloats) (inputs : List (AClip Int × Signal Int)) (matrix : List Nat) (outs : List Int)
    (hi : inputs ≠ []) (hch : ∀ x ∈ inputs, 0 < x.1.ai.format.numChannels)
    (hs : outs.length * Spec.total inputs < 2 ^ 31) (hl : ¬ Spec.MixLegal inputs matrix outs) (oe : Option Int) (warned : Int → Bool) :
    ∃ m, audioMixCreate F (inputs.map (·.1)) matrix outs oe warned = .err m := by
  by_cases hr : ∀ x ∈ outs, 0 ≤ x ∧ x < 64
  case neg =>
    unfold audioMixCreate
    rw [mixLayout_none outs 0 (by simpa using hr)]
    exact ⟨_, rfl⟩
  obtain ⟨L, hL1, hL2⟩ := layout_facts hr
  have hcount := layout_count hr hL2
  have hge := total_ge hch
  have hin0 : 0 < inputs.length := List.length_pos_iff.2 hi
  unfold audioMixCreate
  simp only [hL1]
  rw [total_sources, if_neg (by simp; omega)]
  have hsl := total_sources inputs
  generalize hsources : mixSources ((inputs.map (·.1)).map (·.ai.format)) = sources at hsl
  have hi32 : ((outs.length : Int) * (Spec.total inputs : Nat)) = ((outs.length * Spec.total inputs : Nat) : Int) := by push_cast; rfl
  rw [hi32, i32_ok (by unfold InI32 INT_MAX INT_MIN; omega)]
  simp only [Res.bind]
  by_cases hsz : matrix.length = outs.length * Spec.total inputs
  case neg =>
    rw [if_pos (by intro h; apply hsz; exact_mod_cast h.symm)]
    exact ⟨_, rfl⟩
  rw [if_neg (by rw [hsz]; simp)]
  cases hss : sources with
  | nil => rw [hss] at hsl; simp at hsl; omega
  | cons s0 rest =>
    obtain ⟨x0, hx0, -⟩ := mem_sources (inputs := inputs) (i := s0.1) (c := s0.2) (by rw [hsources, hss]; simp)
    have hx0m : x0 ∈ inputs := List.mem_of_getElem? hx0
    have hg : (inputs.map (·.1))[s0.1]? = some x0.1 := by simp [hx0]
    simp only [List.head?_cons, hg]
    split
    · exact ⟨_, rfl⟩
    rename_i hkind
    have hk : ∀ x ∈ inputs, x.1.ai.numSamples = x0.1.ai.numSamples ∧ x.1.ai.sampleRate = x0.1.ai.sampleRate ∧
        x.1.ai.format.bitsPerSample = x0.1.ai.format.bitsPerSample ∧ x.1.ai.format.sampleType = x0.1.ai.format.sampleType := by
      intro x hx
      simp only [List.any_eq_true, List.mem_map, decide_eq_true_eq, not_exists, not_and] at hkind
      have := hkind x.1 ⟨x, hx, rfl⟩
      omega
    have hnd : ¬ outs.Nodup := by
      intro hnd
      apply hl
      refine ⟨hr, hnd, hsz, ?_⟩
      intro x hx y hy
      have a := hk x hx
      have b := hk y hy
      omega
    cases hq : queryAudioFormat x0.1.ai.format.sampleType x0.1.ai.format.bitsPerSample L with
    | none => exact ⟨_, rfl⟩
    | some fmt =>
      simp only
      rw [if_pos]
      · exact ⟨_, rfl⟩
      · unfold queryAudioFormat at hq
        split at hq
        · cases hq
        · simp only [Option.some.injEq] at hq
          rw [← hq]
          simp only
          intro h
          exact hnd (hcount.1 h)

/-! ## Selecting channels -/

theorem dot_select : ∀ (xs : List Int) (s : Nat) (ws : List Rat), ws.length = xs.length →
    (∀ t v, ws[t]? = some v → v = if t = s then 1 else 0) → Spec.dot (xs.zip ws) = xs.getD s 0 := by
  intro xs
  induction xs with
  | nil => intro s ws _ _; simp [Spec.dot]
  | cons x xs ih =>
    intro s ws hl hw
    cases ws with
    | nil => simp at hl
    | cons v ws =>
      have h0 := hw 0 v rfl
      rw [List.zip_cons_cons, Spec.dot]
      cases s with
      | zero =>
        rw [if_pos rfl] at h0
        have hz : ∀ (xs : List Int) (ws : List Rat), (∀ (t : Nat) (v : Rat), ws[t]? = some v → v = 0) → Spec.dot (xs.zip ws) = 0 := by
          intro xs
          induction xs with
          | nil => intro ws _; simp [Spec.dot]
          | cons y ys ih' =>
            intro ws h
            cases ws with
            | nil => simp [Spec.dot]
            | cons u us =>
              rw [List.zip_cons_cons, Spec.dot, ih' us (fun t v h' => h (t + 1) v (by simpa using h')), h 0 u rfl]
              simp
        rw [hz xs ws (fun t v h' => by have := hw (t + 1) v (by simpa using h'); simpa using this), h0]
        simp
      | succ s =>
        rw [if_neg (by omega)] at h0
        rw [h0, ih s ws (by simpa using hl) (fun t v h' => by have := hw (t + 1) v (by simpa using h'); simpa using this)]
        simp

/-- Weights as integers. -/
theorem select_ints : ∀ (xs : List Int) (s : Nat) (ws : List Rat), (∀ t v, ws[t]? = some v → v = if t = s then 1 else 0) →
    ∃ ts : List (Int × Int), xs.zip ws = ts.map (fun p => (p.1, (p.2 / 2 ^ 0 : Rat))) ∧
      Spec.imass ts ≤ (xs.getD s 0).natAbs := by
  intro xs
  induction xs with
  | nil => intro s ws _; exact ⟨[], by simp, by simp [Spec.imass]⟩
  | cons x xs ih =>
    intro s ws hw
    cases ws with
    | nil => exact ⟨[], by simp, by simp [Spec.imass]⟩
    | cons v ws =>
      have h0 := hw 0 v rfl
      cases s with
      | zero =>
        rw [if_pos rfl] at h0
        have hz : ∀ (xs : List Int) (ws : List Rat), (∀ (t : Nat) (v : Rat), ws[t]? = some v → v = 0) →
            ∃ ts : List (Int × Int), xs.zip ws = ts.map (fun p => (p.1, (p.2 / 2 ^ 0 : Rat))) ∧ Spec.imass ts = 0 := by
          intro xs
          induction xs with
          | nil => intro ws _; exact ⟨[], by simp, rfl⟩
          | cons y ys ih' =>
            intro ws h
            cases ws with
            | nil => exact ⟨[], by simp, rfl⟩
            | cons u us =>
              obtain ⟨ts, t1, t2⟩ := ih' us (fun t v h' => h (t + 1) v (by simpa using h'))
              refine ⟨(y, 0) :: ts, ?_, by simp [Spec.imass, t2]⟩
              rw [List.zip_cons_cons, t1, h 0 u rfl]
              simp
        obtain ⟨ts, t1, t2⟩ := hz xs ws (fun t v h' => by have := hw (t + 1) v (by simpa using h'); simpa using this)
        refine ⟨(x, 1) :: ts, ?_, by simp [Spec.imass, t2]⟩
        rw [List.zip_cons_cons, t1, h0]
        simp
      | succ s =>
        rw [if_neg (by omega)] at h0
        obtain ⟨ts, t1, t2⟩ := ih s ws (fun t v h' => by have := hw (t + 1) v (by simpa using h'); simpa using this)
        refine ⟨(x, 0) :: ts, ?_, ?_⟩
        · rw [List.zip_cons_cons, t1, h0]; simp
        · simpa [Spec.imass] using t2

theorem zip_valued (w : Nat → Rat) : ∀ (xs : List Int) (bs : List Nat),
    (xs.zip bs).map (fun q => (q.1, w q.2)) = xs.zip (bs.map w) := by
  intro xs
  induction xs with
  | nil => intro bs; simp
  | cons x xs ih =>
    intro bs
    cases bs with
    | nil => simp
    | cons b bs => simp [ih]

/-- A matrix that selects: if row `j` has weight one for input channel `s j` and zero for all others, output channel `j` is
exactly that input channel; nothing is clipped. -/
theorem C90_select (F : DFloats) (inputs : List (AClip Int × Signal Int)) (N : Nat) (matrix : List Nat) (outs : List Int)
    (hi : inputs ≠ []) (ho : outs ≠ []) (hc : ∀ x ∈ inputs, x.1.Carries N x.2 ∧ 0 < x.1.ai.format.numChannels)
    (hs : outs.length * Spec.total inputs < 2 ^ 31) (hl : Spec.MixLegal inputs matrix outs)
    (hint : ∀ x ∈ inputs, x.1.ai.format.sampleType = 0)
    (hx : ∀ x ∈ inputs, ∀ c p, c < x.1.ai.format.numChannels → p < N → Spec.Proper x.1.ai.format (x.2 c p))
    (s : Nat → Nat) (hsel : ∀ j, j < outs.length → s j < Spec.total inputs)
    (hw : ∀ j, j < outs.length → ∀ t b, (Spec.row matrix (Spec.total inputs) j)[t]? = some b →
      Dbl.ofBits b = .fin (if t = s j then 1 else 0)) (oe : Option Int) (warned : Int → Bool) :
    ∃ out sig', audioMixCreate F (inputs.map (·.1)) matrix outs oe warned = .ok out ∧ Spec.MixInfo inputs outs N out ∧
      out.Carries N sig' ∧
      ∀ j b, outs[j]? = some b → ∀ p, p < N → sig' (Audio.Spec.rank out.ai.format.channelLayout b.toNat) p =
        (Spec.channels inputs p).getD (s j) 0 := by
  obtain ⟨x0, hx0⟩ := List.exists_mem_of_ne_nil _ hi
  obtain ⟨w, hwdef⟩ : ∃ w : Nat → Rat, w = fun b => match Dbl.ofBits b with | .fin q => q | _ => 0 := ⟨_, rfl⟩
  have hwrow : ∀ j, j < outs.length → ∀ t b, (Spec.row matrix (Spec.total inputs) j)[t]? = some b → w b = if t = s j then 1 else 0 := by
    intro j hj t b hb
    rw [hwdef]
    simp only [hw j hj t b hb]
  have hproper : ∀ x ∈ inputs, ∀ c p, c < x.1.ai.format.numChannels → p < N → |x.2 c p| ≤ 2 ^ 31 := by
    intro x hxm c p hcc hpp
    obtain ⟨n, h1, h2, h3⟩ := hx x hxm c p hcc hpp
    obtain ⟨q, hq, e1, e2, e3, e4, e5, e6⟩ := range_eq (valid_bytes (hc x hxm).1.info)
    rw [h1, e2, abs_le]
    have p' : (0 : Int) < 2 ^ q := by positivity
    have b1 : -(Spec.half x.1.ai.format * 2 ^ q) ≤ n * 2 ^ q := by
      have := Int.mul_le_mul_of_nonneg_right h2 p'.le
      linarith
    have b2 : n * 2 ^ q < Spec.half x.1.ai.format * 2 ^ q := Int.mul_lt_mul_of_pos_right (by omega) p'
    omega
  have hmat : ∀ b ∈ matrix, Dbl.ofBits b = .fin (w b) ∧ |w b| ≤ 2 ^ 900 := by
    intro b hb
    obtain ⟨t, ht, e⟩ := List.mem_iff_getElem.1 hb
    have hK : 0 < Spec.total inputs := by
      rcases Nat.eq_zero_or_pos (Spec.total inputs) with h | h
      · have := hl.size; rw [h] at this; omega
      · exact h
    have hj : t / Spec.total inputs < outs.length := by
      rw [Nat.div_lt_iff_lt_mul hK, ← hl.size]; exact ht
    have hg : (Spec.row matrix (Spec.total inputs) (t / Spec.total inputs))[t % Spec.total inputs]? = some b := by
      unfold Spec.row
      rw [List.getElem?_take, if_pos (Nat.mod_lt _ hK), List.getElem?_drop, Nat.mul_comm, Nat.div_add_mod,
        List.getElem?_eq_getElem ht, e]
    have h1 := hw _ hj _ _ hg
    have h2 := hwrow _ hj _ _ hg
    rw [h1, h2]
    refine ⟨rfl, ?_⟩
    have : (1 : Rat) ≤ 2 ^ 900 := one_le_pow₀ (by norm_num)
    split
    · rw [abs_one]; exact this
    · rw [abs_zero]; positivity
  obtain ⟨out, sig', clipS, o1, o2, o3, o4⟩ := C90_mix F inputs N matrix outs hi ho hc hs hl hint hproper w hmat oe warned
  have key : ∀ j b, outs[j]? = some b → ∀ p, p < N →
      sig' (Audio.Spec.rank out.ai.format.channelLayout b.toNat) p = (Spec.channels inputs p).getD (s j) 0 ∧
      clipS (Audio.Spec.rank out.ai.format.channelLayout b.toNat) p = false := by
    intro j b hb p hp
    have hj := (List.getElem?_eq_some_iff.1 hb).1
    have hm := o3 j b hb p hp
    rw [zip_valued] at hm
    have hws : ∀ t v, ((Spec.row matrix (Spec.total inputs) j).map w)[t]? = some v → v = if t = s j then 1 else 0 := by
      intro t v hv
      rw [List.getElem?_map] at hv
      cases hr : (Spec.row matrix (Spec.total inputs) j)[t]? with
      | none => rw [hr] at hv; cases hv
      | some b' =>
        rw [hr] at hv
        simp only [Option.map_some, Option.some.injEq] at hv
        rw [← hv, hwrow j hj t b' hr]
    have hrow : (Spec.row matrix (Spec.total inputs) j).length = Spec.total inputs := by
      unfold Spec.row
      rw [List.length_take, List.length_drop, hl.size]
      have : j * Spec.total inputs + Spec.total inputs ≤ outs.length * Spec.total inputs := by
        rw [← Nat.succ_mul]
        exact Nat.mul_le_mul_right _ (by omega)
      omega
    -- the selected sample
    have hsj : s j < (Spec.channels inputs p).length := by rw [channels_length]; exact hsel j hj
    have hmemc : (Spec.channels inputs p).getD (s j) 0 ∈ Spec.channels inputs p := by
      simp [List.getD, hsj]
    obtain ⟨x, hxm, c, hcc, ex⟩ := mem_channels hmemc
    have hpx := hx x hxm c p hcc hp
    have hbx := hproper x hxm c p hcc hp
    rw [← ex] at hpx hbx
    obtain ⟨ts, t1, t2⟩ := select_ints (Spec.channels inputs p) (s j) _ hws
    have hq := hm.exact ts 0 t1 (by rw [abs_le] at hbx; omega) (by omega)
    rw [dot_select _ (s j) _ (by rw [List.length_map, hrow, channels_length]) hws] at hq
    have hf := valid_bytes o2.valid
    have hpo : Spec.Proper out.ai.format ((Spec.channels inputs p).getD (s j) 0) := by
      obtain ⟨n, h1, h2, h3⟩ := hpx
      refine ⟨n, ?_, ?_, ?_⟩
      · rw [h1]; unfold Spec.step; rw [(o2.kind x hxm).2.1]
      · unfold Spec.half at *; rw [(o2.kind x hxm).2.1]; exact h2
      · unfold Spec.half at *; rw [(o2.kind x hxm).2.1]; exact h3
    exact quantised_proper hf hpo hq
  refine ⟨out, sig', o1, o2, ⟨o2.valid, o2.length.1, (hc x0 hx0).1.range, o2.length.2, ?_⟩, fun j b hb p hp => (key j b hb p hp).1⟩
  intro k hk
  refine o4.ok k hk (Or.inl ?_)
  rintro ⟨c, p, h1, h2, -, h3⟩
  obtain ⟨j, b, hb, e⟩ := out_channel o2 h1
  rw [← e, (key j b hb p h2).2] at h3
  cases h3

/-! ## Concrete cases -/

/-- Two channels of 16 bit samples. -/
def stereo16 : AudioFormat := ⟨0, 16, 2, 2, 3⟩

theorem value_zero : Dbl.ofBits 0 = .fin 0 := by decide +kernel

/-- Stereo and mono clip of 5000 samples. -/
def demo : List (AClip Int × Signal Int) :=
  [(AClip.ofSignal stereo16 48000 5000 (fun c p => 100 * c + p % 100), fun c p => 100 * c + p % 100),
   (AClip.ofSignal mono16 48000 5000 (fun _ p => -(p % 1000 : Nat)), fun _ p => -(p % 1000 : Nat))]

theorem demo_ok : ∀ x ∈ demo, x.1.Carries 5000 x.2 ∧ 0 < x.1.ai.format.numChannels := by
  intro x hx
  simp only [demo, List.mem_cons, List.not_mem_nil, or_false] at hx
  rcases hx with h | h <;> subst h
  · exact ⟨AClip.ofSignal_carries (fmt := stereo16) (rate := 48000) (N := 5000) (fun c p => (100 * c + p % 100 : Int)) (by decide) (by decide),
      by decide⟩
  · exact ⟨AClip.ofSignal_carries (fmt := mono16) (rate := 48000) (N := 5000) (fun _ p => (-(p % 1000 : Nat) : Int)) (by decide) (by decide),
      by decide⟩

theorem demo_legal : Spec.MixLegal demo [bitsHalf, bitsHalf, 0, 0, bits2, bits1] [5, 2] := by
  refine ⟨by decide, by decide, by decide, ?_⟩
  intro x hx y hy
  simp only [demo, List.mem_cons, List.not_mem_nil, or_false] at hx hy
  rcases hx with h | h <;> subst h <;> rcases hy with h | h <;> subst h <;> exact ⟨rfl, rfl, rfl, rfl⟩

/-- The conditions of `C90_mix`: three input channels, two output channels, given in descending order. -/
example (F : DFloats) : ∃ out sig' clipS,
    audioMixCreate F (demo.map (·.1)) [bitsHalf, bitsHalf, 0, 0, bits2, bits1] [5, 2] (some 1) (fun _ => false) = .ok out ∧
    (sig' 1 199 = 149 ∧ sig' 0 199 = 199) ∧ Spec.Delivers "AudioMix" out 5000 sig' clipS true (fun _ => false) := by
  obtain ⟨w, hwdef⟩ : ∃ w : Nat → Rat, w = fun b => match Dbl.ofBits b with | .fin q => q | _ => 0 := ⟨_, rfl⟩
  have w0 : w 0 = 0 := by rw [hwdef]; simp only [value_zero]
  have w1 : w bits1 = 1 := by rw [hwdef]; simp only [value_one]
  have w2 : w bits2 = 2 := by rw [hwdef]; simp only [value_two]
  have wh : w bitsHalf = 1 / 2 := by rw [hwdef]; simp only [value_half]
  have hbig : (2 : Rat) ≤ 2 ^ 900 := by
    calc (2 : Rat) = 2 ^ 1 := by norm_num
      _ ≤ 2 ^ 900 := pow_le_pow_right₀ (by norm_num) (by norm_num)
  obtain ⟨out, sig', clipS, o1, o2, o3, o4⟩ := C90_mix F demo 5000 [bitsHalf, bitsHalf, 0, 0, bits2, bits1] [5, 2] (by simp [demo]) (by simp)
    demo_ok (by decide) demo_legal (by
      intro x hx
      simp only [demo, List.mem_cons, List.not_mem_nil, or_false] at hx
      rcases hx with h | h <;> subst h <;> rfl) (by
      intro x hx c p hcc hpp
      simp only [demo, List.mem_cons, List.not_mem_nil, or_false] at hx
      rcases hx with h | h <;> subst h
      · have : c < 2 := hcc
        simp only [abs_le]; omega
      · simp only [abs_le]; omega) w (by
      intro b hb
      simp only [List.mem_cons, List.not_mem_nil, or_false] at hb
      rcases hb with h | h | h | h | h | h <;> subst h
      all_goals first | rw [w0] | rw [w1] | rw [w2] | rw [wh]
      · exact ⟨value_half, by rw [abs_of_nonneg (by norm_num)]; exact le_trans (by norm_num) hbig⟩
      · exact ⟨value_half, by rw [abs_of_nonneg (by norm_num)]; exact le_trans (by norm_num) hbig⟩
      · exact ⟨value_zero, by rw [abs_zero]; exact le_trans (by norm_num) hbig⟩
      · exact ⟨value_zero, by rw [abs_zero]; exact le_trans (by norm_num) hbig⟩
      · exact ⟨value_two, by rw [abs_of_nonneg (by norm_num)]; exact le_trans (by norm_num) hbig⟩
      · exact ⟨value_one, by rw [abs_of_nonneg (by norm_num)]; exact le_trans (by norm_num) hbig⟩) (some 1) (fun _ => false)
  refine ⟨out, sig', clipS, o1, ?_, o4⟩
  have hbit : ∀ b : Nat, out.ai.format.channelLayout.testBit b = decide ((b : Int) ∈ [(5 : Int), 2]) := by
    intro b; rw [Bool.eq_iff_iff, o2.layout, decide_eq_true_eq]
  have r5 : Audio.Spec.rank out.ai.format.channelLayout 5 = 1 := by
    unfold Audio.Spec.rank
    rw [show out.ai.format.channelLayout.testBit = fun b : Nat => decide ((b : Int) ∈ [(5 : Int), 2]) from funext hbit]
    decide
  have r2 : Audio.Spec.rank out.ai.format.channelLayout 2 = 0 := by
    unfold Audio.Spec.rank
    rw [show out.ai.format.channelLayout.testBit = fun b : Nat => decide ((b : Int) ∈ [(5 : Int), 2]) from funext hbit]
    decide
  have hx0 : demo.head (by simp [demo]) ∈ demo := List.head_mem _
  have hb : out.ai.format.bitsPerSample = 16 := (o2.kind _ hx0).2.1
  have hch : Spec.channels demo 199 = [99, 199, -199] := by decide
  have hstep : Spec.step out.ai.format = 1 := by unfold Spec.step; rw [hb]; rfl
  have hhalf : Spec.half out.ai.format = 32768 := by unfold Spec.half; rw [hb]; rfl
  have a := o3 0 5 rfl 199 (by omega)
  have b := o3 1 2 rfl 199 (by omega)
  rw [show (5 : Int).toNat = 5 from rfl, r5, hch] at a
  rw [show (2 : Int).toNat = 2 from rfl, r2, hch] at b
  have ra : Spec.row [bitsHalf, bitsHalf, 0, 0, bits2, bits1] (Spec.total demo) 0 = [bitsHalf, bitsHalf, 0] := by decide
  have rb : Spec.row [bitsHalf, bitsHalf, 0, 0, bits2, bits1] (Spec.total demo) 1 = [0, bits2, bits1] := by decide
  rw [ra] at a
  rw [rb] at b
  simp only [List.zip_cons_cons, List.zip_nil_right, List.map_cons, List.map_nil, w0, w1, w2, wh] at a b
  have key : ∀ (terms : List (Int × Rat)) (n : Int) (o : Int) (c : Bool), Spec.dot terms = n → -32768 ≤ n → n ≤ 32767 →
      Spec.Quantised out.ai.format (Spec.dot terms) o c → o = n := by
    intro terms n o c hd h1 h2 hq
    rw [hd] at hq
    exact (quantised_proper (valid_bytes o2.valid) ⟨n, by rw [hstep]; omega, by omega, by omega⟩ hq).1
  constructor
  · exact key _ 149 _ _ (by norm_num [Spec.dot]) (by omega) (by omega)
      (a.exact [(99, 1), (199, 1), (-199, 0)] 1 (by norm_num) (by decide) (by omega))
  · exact key _ 199 _ _ (by norm_num [Spec.dot]) (by omega) (by omega)
      (b.exact [(99, 0), (199, 2), (-199, 1)] 0 (by norm_num) (by decide) (by omega))

/-- Finite weights are not enough: with two weights near the largest double the sum becomes infinite minus infinite, which is
converted to an integer: undefined behaviour, whatever the rounding. -/
theorem C90_any_weights_refuted (F : DFloats) : ∃ (clip : AClip Int) (sig : Signal Int) (matrix : List Nat) (out : AClip Int),
    clip.Carries 1 sig ∧ clip.ai.format.sampleType = 0 ∧ Spec.MixLegal [(clip, sig)] matrix [0] ∧
    (∀ b ∈ matrix, ∃ q, Dbl.ofBits b = .fin q) ∧
    audioMixCreate F [clip] matrix [0] none (fun _ => false) = .ok out ∧ out.frame 0 = .ub := by
  have hp : Dbl.ofBits 0x7fe0000000000000 = .fin (2 ^ 1023) := by decide +kernel
  have hn : Dbl.ofBits 0xffe0000000000000 = .fin (-2 ^ 1023) := by decide +kernel
  have hc : (AClip.ofSignal stereo16 48000 1 (fun _ _ => (4 : Int))).Carries 1 (fun _ _ => 4) :=
    AClip.ofSignal_carries _ (by decide) (by decide)
  generalize hcl : AClip.ofSignal stereo16 48000 1 (fun _ _ => (4 : Int)) = clip at hc
  have hfmt : clip.ai.format = stereo16 := by rw [← hcl]; rfl
  -- the sum
  have hrnd : ∀ s : Rat, s = 1 ∨ s = -1 → Dbl.ofRat (F.rnd (4 * (s * 2 ^ 1023))) = .inf (decide (s < 0)) := by
    intro s hs
    have hcl := F.rnd_close (4 * (s * 2 ^ 1023))
    have e : (1 : Rat) / 2 ^ 1075 ≤ 2 ^ 1023 := le_trans (by
      rw [div_le_one (by positivity)]; exact one_le_pow₀ (by norm_num)) (one_le_pow₀ (by norm_num))
    have e2 : (2 : Rat) ^ 1024 = 2 * 2 ^ 1023 := by rw [pow_succ, mul_comm]
    have e3 : |4 * (s * 2 ^ 1023)| = 4 * 2 ^ 1023 := by
      have h0 : (0 : Rat) < 2 ^ 1023 := by positivity
      generalize (2 : Rat) ^ 1023 = P at h0
      rcases hs with h | h <;> subst h
      · rw [abs_of_nonneg (by linarith)]; ring
      · rw [abs_of_nonpos (by linarith)]; ring
    have e4 : (4 : Rat) * 2 ^ 1023 / 2 ^ 53 ≤ 2 ^ 1023 / 4 := by
      rw [div_le_div_iff₀ (by positivity) (by norm_num)]
      have h0 : (0 : Rat) < 2 ^ 1023 := by positivity
      generalize (2 : Rat) ^ 1023 = P at h0
      norm_num
      linarith
    rw [e3] at hcl
    have h0 : (0 : Rat) < 2 ^ 1023 := by positivity
    unfold Dbl.ofRat
    rw [e2]
    generalize (1 : Rat) / 2 ^ 1075 = a at *
    generalize (4 : Rat) * 2 ^ 1023 / 2 ^ 53 = b at *
    generalize (2 : Rat) ^ 1023 = P at *
    have hab := abs_le.1 hcl
    clear e2 e3 hcl hp hn
    rcases hs with h | h <;> subst h
    · have : 2 * P ≤ F.rnd (4 * (1 * P)) := by linarith
      rw [if_pos (le_trans this (le_abs_self _)), decide_eq_false (by linarith), decide_eq_false (by norm_num)]
    · have : F.rnd (4 * (-1 * P)) ≤ -(2 * P) := by linarith
      rw [if_pos (by rw [ge_iff_le, le_abs]; right; linarith), decide_eq_true (by linarith), decide_eq_true (by norm_num)]
  have hsum : mixSum F [(4, 0x7fe0000000000000), (4, 0xffe0000000000000)] = .nan := by
    have hp1 : Dbl.ofRat (F.rnd (4 * 2 ^ 1023)) = .inf false := by
      have := hrnd 1 (Or.inl rfl)
      rw [one_mul] at this
      rw [this]; rfl
    have hn1 : Dbl.ofRat (F.rnd (4 * -2 ^ 1023)) = .inf true := by
      have := hrnd (-1) (Or.inr rfl)
      rw [neg_one_mul] at this
      rw [this]; rfl
    unfold mixSum
    simp only [List.foldl_cons, List.foldl_nil, hp, hn, Int.cast_ofNat]
    generalize (2 : Rat) ^ 1023 = P at *
    have hmulp : Dbl.mul F (.fin 4) (.fin P) = .inf false := hp1
    have hmuln : Dbl.mul F (.fin 4) (.fin (-P)) = .inf true := hn1
    have hfirst : Dbl.mac F (.fin 0) (.fin 4) (.fin P) = .inf false := by
      unfold Dbl.mac
      split
      · simp only [zero_add]; exact hp1
      · rw [hmulp]; rfl
    rw [hfirst]
    unfold Dbl.mac
    split
    · simp only []
      rw [hmuln]; rfl
    · rw [hmuln]; rfl
  have hch : clip.ai = ⟨stereo16, 48000, 1, 1⟩ := by rw [← hcl]; rfl
  have hcreate : audioMixCreate F [clip] [0x7fe0000000000000, 0xffe0000000000000] [0] none (fun _ => false) =
      createAudioFilter (mixFilter F ⟨⟨0, 16, 2, 1, 1⟩, 48000, 1, 1⟩
        [⟨0, 0, [0x7fe0000000000000]⟩, ⟨0, 1, [0xffe0000000000000]⟩] [0] false (fun _ => false)) [clip] := by
    rw [← hcl]
    rfl
  obtain ⟨out, e1, e2, e3⟩ := create_frames (mixFilter F ⟨⟨0, 16, 2, 1, 1⟩, 48000, 1, 1⟩
      [⟨0, 0, [0x7fe0000000000000]⟩, ⟨0, 1, [0xffe0000000000000]⟩] [0] false (fun _ => false))
    [clip] 1 (show isValidAudioInfo ⟨⟨0, 16, 2, 1, 1⟩, 48000, 1, 1⟩ = true by decide) rfl hc.range (by
    intro k hk
    refine ⟨_, rfl, ?_⟩
    intro r hr
    simp only [List.map_cons, List.map_nil, List.mem_cons, List.not_mem_nil, or_false, or_self] at hr
    subst hr
    exact ⟨by simp, clip, 1, _, rfl, hc⟩)
  refine ⟨clip, fun _ _ => 4, [0x7fe0000000000000, 0xffe0000000000000], out, hc, by rw [hfmt]; rfl, ?_, ?_, by rw [hcreate]; exact e1, ?_⟩
  · refine ⟨by decide, by decide, ?_, ?_⟩
    · simp [Spec.total, hfmt, stereo16]
    · intro x hx y hy
      simp only [List.mem_singleton] at hx hy
      subst hx; subst hy
      exact ⟨rfl, rfl, rfl, rfl⟩
  · intro b hb
    simp only [List.mem_cons, List.not_mem_nil, or_false] at hb
    rcases hb with h | h <;> subst h
    · exact ⟨_, hp⟩
    · exact ⟨_, hn⟩
  · obtain ⟨rq, fetch, r1, r2, r3, r4, r5⟩ := e3 0 (by decide)
    apply r5
    cases r1
    obtain ⟨src, f1, f2⟩ := r2 0 0 (by simp) clip 1 _ rfl hc
    have hlen : src.len = 1 := f2.len
    have h0 : src.ch 0 0 = some 4 := f2.samples 0 (by rw [hfmt]; decide) 0 (by decide)
    have h1 : src.ch 1 0 = some 4 := f2.samples 1 (by rw [hfmt]; decide) 0 (by decide)
    show (mixFetch (0 : Int) fetch [⟨0, 0, [0x7fe0000000000000]⟩, ⟨0, 1, [0xffe0000000000000]⟩] >>= _) = _
    have hfe : mixFetch (0 : Int) fetch [⟨0, 0, [0x7fe0000000000000]⟩, ⟨0, 1, [0xffe0000000000000]⟩] =
        .ok [(src, ⟨0, 0, [0x7fe0000000000000]⟩), (src, ⟨0, 1, [0xffe0000000000000]⟩)] := by
      have f1' : fetch 0 (0 : Int) = some src := f1
      simp only [mixFetch, f1', deref, Res.bind_ok]
      rfl
    rw [hfe]
    simp only [Res.bind_ok, hlen]
    rw [newAudioFrame_ok (by omega)]
    simp only [Res.bind_ok]
    rw [if_neg (by decide)]
    have hs : mixSample F ⟨0, 16, 2, 1, 1⟩ [(src, ⟨0, 0, [0x7fe0000000000000]⟩), (src, ⟨0, 1, [0xffe0000000000000]⟩)] 0 0 = .ub := by
      have ht : mixTerms [(src, ⟨0, 0, [0x7fe0000000000000]⟩), (src, ⟨0, 1, [0xffe0000000000000]⟩)] 0 0 =
          .ok [(4, 0x7fe0000000000000), (4, 0xffe0000000000000)] := by
        simp only [mixTerms, readSample, h0, h1, Res.bind_ok]
        rfl
      unfold mixSample
      rw [ht]
      simp only [Res.bind_ok, hsum]
      rfl
    have hb : byPosition 1 (1 : Int).toNat = [(0, 0)] := rfl
    show ((sampleLoop _ _ _ _ _ (byPosition 1 (1 : Int).toNat) _) >>= _) = _
    rw [hb, sampleLoop, show mixSample F (⟨⟨0, 16, 2, 1, 1⟩, 48000, 1, 1⟩ : AudioInfo).format _ 0 0 = .ub from hs]
    rfl

/-- As for AudioGain: clipping behind the first 2^31 samples is undefined behaviour, whether an error was asked for or not. -/
theorem C90_any_length_refuted (F : DFloats) (oe : Option Int) : ∃ (clip : AClip Int) (N : Nat) (sig : Signal Int) (out : AClip Int),
    clip.Carries N sig ∧ clip.ai.format.sampleType = 0 ∧
    audioMixCreate F [clip] [bits2] [0] oe (fun _ => false) = .ok out ∧ out.frame 699050 = .ub := by
  have hc : (AClip.ofSignal mono16 48000 2147485000 (fun _ _ => (32767 : Int))).Carries 2147485000 (fun _ _ => 32767) :=
    AClip.ofSignal_carries _ (by decide) (by decide)
  obtain ⟨w, hwdef⟩ : ∃ w : Nat → Rat, w = fun b => match Dbl.ofBits b with | .fin q => q | _ => 0 := ⟨_, rfl⟩
  have w2 : w bits2 = 2 := by rw [hwdef]; simp only [value_two]
  have hbig : (2 : Rat) ≤ 2 ^ 900 := by
    calc (2 : Rat) = 2 ^ 1 := by norm_num
      _ ≤ 2 ^ 900 := pow_le_pow_right₀ (by norm_num) (by norm_num)
  obtain ⟨out, sig', clipS, o1, o2, o3, o4⟩ := C90_mix F
    [(AClip.ofSignal mono16 48000 2147485000 (fun _ _ => (32767 : Int)), fun _ _ => (32767 : Int))] 2147485000 [bits2] [0] (by simp) (by simp)
    (by
      intro x hx
      simp only [List.mem_singleton] at hx
      subst hx
      exact ⟨hc, by decide⟩) (by decide)
    ⟨by decide, by decide, by decide, by
      intro x hx y hy
      simp only [List.mem_singleton] at hx hy
      subst hx; subst hy
      exact ⟨rfl, rfl, rfl, rfl⟩⟩
    (by
      intro x hx
      simp only [List.mem_singleton] at hx
      subst hx; rfl)
    (by
      intro x hx c p _ _
      simp only [List.mem_singleton] at hx
      subst hx
      show |(32767 : Int)| ≤ 2 ^ 31
      decide) w
    (by
      intro b hb
      simp only [List.mem_singleton] at hb
      subst hb
      rw [w2]
      exact ⟨value_two, by rw [abs_of_nonneg (by norm_num)]; exact hbig⟩) oe (fun _ => false)
  refine ⟨_, _, _, out, hc, rfl, o1, ?_⟩
  have hb : out.ai.format.bitsPerSample = 16 := (o2.kind _ (List.mem_singleton.2 rfl)).2.1
  have hstep : Spec.step out.ai.format = 1 := by unfold Spec.step; rw [hb]; rfl
  have hhalf : Spec.half out.ai.format = 32768 := by unfold Spec.half; rw [hb]; rfl
  have hrank : Audio.Spec.rank out.ai.format.channelLayout (0 : Int).toNat = 0 := rfl
  apply o4.ub 699050 (by unfold frameCount; omega)
  · have hn : 0 < out.ai.format.numChannels := by
      rw [valid_popcount o2.valid, ← layoutChannels_length]
      have : (0 : Nat) ∈ layoutChannels out.ai.format.channelLayout := layoutChannels_mem.2 ⟨by omega, (o2.layout 0).2 (by simp)⟩
      exact List.length_pos_of_mem this
    refine ⟨0, 699050 * 3072, hn, by omega, by omega, ?_⟩
    have hm := o3 0 0 rfl (699050 * 3072) (by omega)
    rw [hrank] at hm
    have hch : Spec.channels [(AClip.ofSignal mono16 48000 2147485000 (fun _ _ => (32767 : Int)), fun _ _ => (32767 : Int))] (699050 * 3072) =
      [32767] := rfl
    rw [hch, show Spec.row [bits2] (Spec.total [(AClip.ofSignal mono16 48000 2147485000 (fun _ _ => (32767 : Int)), fun _ _ => (32767 : Int))]) 0 =
      [bits2] by decide] at hm
    simp only [List.zip_cons_cons, List.zip_nil_right, List.map_cons, List.map_nil, w2] at hm
    obtain ⟨n, h1, h2, h3⟩ := hm.exact [(32767, 2)] 0 (by norm_num) (by decide) (by omega)
    rw [h3]
    right
    have hd : Spec.dot [((32767 : Int), (2 : Rat))] = 65534 := by norm_num [Spec.dot]
    rw [hd, hstep] at h1
    have : n = 65534 := nearest_unique h1 ⟨by norm_num, by norm_num⟩
    subst this
    rw [hhalf]
    omega
  · unfold Spec.Countable; omega
  · exact Or.inr rfl

/-- The conditions of `C90_select`: the channels of a stereo clip exchanged. -/
example : ∀ j, j < [(0 : Int), 1].length → ∀ t b, (Spec.row [0, bits1, bits1, 0] 2 j)[t]? = some b →
    Dbl.ofBits b = .fin (if t = (fun j => 1 - j) j then 1 else 0) := by
  intro j hj t b hb
  have : j = 0 ∨ j = 1 := by
    have : j < 2 := hj
    omega
  rcases this with h | h <;> subst h
  · have hr : Spec.row [0, bits1, bits1, 0] 2 0 = [0, bits1] := by decide
    rw [hr] at hb
    rcases t with _ | _ | t <;> simp at hb
    · subst hb; rw [value_zero]; rfl
    · subst hb; rw [value_one]; rfl
  · have hr : Spec.row [0, bits1, bits1, 0] 2 1 = [bits1, 0] := by decide
    rw [hr] at hb
    rcases t with _ | _ | t <;> simp at hb
    · subst hb; rw [value_one]; rfl
    · subst hb; rw [value_zero]; rfl

/-- The conditions of `C90_arguments`: a channel given twice, a number out of range, too few weights. -/
example : ¬ Spec.MixLegal demo [bits1, 0, 0, 0, 0, bits1] [3, 3] ∧ ¬ Spec.MixLegal demo [bits1, 0, 0] [64] ∧
    ¬ Spec.MixLegal demo [bits1, 0] [0] :=
  ⟨fun h => absurd h.distinct (by decide), fun h => absurd h.range (by decide), fun h => absurd h.size (by decide)⟩

end VS.Gain
