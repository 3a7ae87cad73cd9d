import Verif.Gain.LemmasLoop

/-!
# C89: AudioGain
-/

namespace VS.Gain

set_option maxRecDepth 10000

open VS VS.Audio

/-- The gain for channel `c`: a single value serves all channels. -/
def Spec.GainFor (gains : List Nat) (c : Nat) (b : Nat) : Prop :=
  (gains = [b]) ∨ (1 < gains.length ∧ gains[c]? = some b)

/-- `gain` has one value, or one per channel. -/
def Spec.GainLegal (gains : List Nat) (fmt : AudioFormat) : Prop := gains.length = 1 ∨ gains.length = fmt.numChannels

theorem gainOf_eq {gains : List Nat} {c b : Nat} (h : Spec.GainFor gains c b) : gainOf gains c = .ok b := by
  unfold gainOf
  rcases h with h | ⟨h1, h2⟩
  · subst h; simp
  · rw [if_pos h1, h2]

/-- The whole of AudioGain, from the values of the cells. -/
theorem gain_frames (F : DFloats) (clip : AClip Int) (N : Nat) (sig : Signal Int) (h : clip.Carries N sig) (gains : List Nat)
    (hl : Spec.GainLegal gains clip.ai.format) (oe : Option Int) (warned : Int → Bool) (sig' : Signal Int) (clipS : Nat → Nat → Bool)
    (hcell : ∀ (src : AFrame Int) (c i : Nat) (x : Int) (p : Nat), c < clip.ai.format.numChannels → p < N → src.ch c i = some x → x = sig c p →
      gainSample F clip.ai.format gains src c i = .ok (sig' c p, clipS c p)) :
    ∃ out, audioGainCreate F clip gains oe warned = .ok out ∧ out.ai = clip.ai ∧
      Spec.Delivers "AudioGain" out N sig' clipS (decide (oe.getD 0 ≠ 0)) warned := by
  generalize hoe : decide (oe.getD 0 ≠ 0) = o
  obtain ⟨out, e1, e2, e3⟩ := create_frames (gainFilter F clip.ai gains o warned) [clip] N h.info h.count h.range (by
    intro k hk
    refine ⟨_, rfl, ?_⟩
    intro r hr
    simp only [List.mem_singleton] at hr
    subst hr
    exact ⟨by simp, clip, N, sig, rfl, h⟩)
  have hai : out.ai = clip.ai := by
    rw [e2]
    show { clip.ai with numFrames := (frameCount N : Int) } = clip.ai
    rw [← h.frames]
  refine ⟨out, ?_, hai, ?_⟩
  · unfold audioGainCreate
    rw [if_neg (by unfold Spec.GainLegal at hl; omega), hoe]
    exact e1
  · -- every frame
    have key : ∀ k, k < frameCount N →
        ((¬ Spec.ClipsIn clip.ai.format.numChannels N clipS k ∨ (o = false ∧ (Spec.Countable N k ∨ warned k = true))) →
          ∃ f, out.frame k = .ok f ∧ IsFrame clip.ai.format N sig' k f) ∧
        (Spec.ClipsIn clip.ai.format.numChannels N clipS k → o = true → Spec.Countable N k →
          out.frame k = .err ("AudioGain" ++ ": clipping detected in the sample interval " ++ toString ((k * 3072 : Nat) : Int) ++ " to " ++
            toString ((min N ((k + 1) * 3072) - 1 : Nat) : Int))) ∧
        (Spec.ClipsIn clip.ai.format.numChannels N clipS k → ¬ Spec.Countable N k → (o = true ∨ warned k = false) →
          out.frame k = .ub) := by
      intro k hk
      obtain ⟨rq, fetch, r1, r2, r3, r4, r5⟩ := e3 k hk
      have hrq : rq = [(0, (k : Int))] := by
        have : (gainFilter F clip.ai gains o warned).initial k = .ok [(0, (k : Int))] := rfl
        rw [this] at r1; cases r1; rfl
      subst hrq
      obtain ⟨src, f1, f2⟩ := r2 0 k (by simp) clip N sig rfl h
      rw [show min (k : Int).toNat (frameCount N - 1) = k by omega] at f2
      have hkN := lt_of_lt_frameCount hk
      have hready : (gainFilter F clip.ai gains o warned).ready k fetch =
          (sampleLoop o k (min 3072 (N - k * 3072) : Nat) (gainSample F clip.ai.format gains src) (fun c => c)
            (byChannel clip.ai.format.numChannels (min 3072 (N - k * 3072))) ⟨fun _ _ => none, warned k, false⟩).bind
            (finish "AudioGain" k (min 3072 (N - k * 3072) : Nat) clip.ai.format) := by
        show (deref (fetch 0 k) >>= _) = _
        rw [f1]
        simp only [deref, Res.bind_ok, f2.len]
        rw [newAudioFrame_ok (by omega)]
        simp only [Res.bind_ok, Int.toNat_natCast]
        rfl
      have main := loop_frame "AudioGain" clip.ai.format N k hkN o (warned k) (gainSample F clip.ai.format gains src) (fun c => c)
        (fun c i => sig' c (k * 3072 + i)) (fun c i => clipS c (k * 3072 + i))
        (byChannel clip.ai.format.numChannels (min 3072 (N - k * 3072))) sig' clipS (fun c i => mem_byChannel)
        ⟨fun c i hm => by
          obtain ⟨m1, m2⟩ := mem_byChannel.1 hm
          exact hcell src c i _ (k * 3072 + i) m1 (by omega) (f2.samples c m1 i m2) rfl⟩
        (fun _ _ _ _ h => h) (fun _ h => h) (fun c' h => ⟨c', h, rfl⟩) (fun _ _ _ => ⟨rfl, rfl⟩) (fun _ _ => none)
      simp only at main
      rw [← hready] at main
      obtain ⟨m1, m2, m3⟩ := main
      refine ⟨?_, ?_, ?_⟩
      · intro hh
        obtain ⟨g, g1, g2⟩ := m1 hh
        exact ⟨g, r3 g sig' g1 g2, g2⟩
      · intro a b c
        exact r4 _ (m2 a b c)
      · intro a b c
        exact r5 (m3 a b c)
    constructor
    · rw [hai]; exact fun k hk => (key k hk).1
    · rw [hai]; exact fun k hk => (key k hk).2.1
    · rw [hai]; exact fun k hk => (key k hk).2.2

theorem amplified_exists (F : DFloats) {fmt : AudioFormat} (hf : IntFormat fmt) (x : Int) (g : Rat) (b : Nat) (hb : Dbl.ofBits b = .fin g) :
    ∃ out clip, (quantizeIntSample F (Dbl.mul F (.fin x) (Dbl.ofBits b)) (intSampleRange fmt)).2 = clip ∧
      (quantizeIntSample F (Dbl.mul F (.fin x) (Dbl.ofBits b)) (intSampleRange fmt)).1.toInt fmt.bytesPerSample = .ok out ∧
      Spec.Amplified fmt g x out clip := by
  rw [hb]
  obtain ⟨out, clip, h1, h2, ⟨v, hv, h3⟩, h4⟩ := quantize_rat F hf (F.rnd (x * g))
  refine ⟨out, clip, h1, h2, ⟨v, ?_, h3⟩, ?_⟩
  · have hc := F.rnd_close (x * g)
    have t1 : |v - x * g| ≤ |v - F.rnd (x * g)| + |F.rnd (x * g) - x * g| := abs_sub_le _ _ _
    have t2 : |F.rnd (x * g)| ≤ |F.rnd (x * g) - x * g| + |x * g| := by
      have := abs_add_le (F.rnd (x * g) - x * g) (x * g)
      simpa using this
    have e1 : (1 : Rat) / 2 ^ 1050 ≤ 1 / 2 ^ 1000 / 4 := by
      rw [div_div, div_le_div_iff₀ (by positivity) (by positivity), one_mul, one_mul,
        show (1000 : Nat) = 998 + 2 by norm_num, pow_add, mul_assoc]
      refine le_trans (b := 2 ^ 998 * 2 ^ 52) ?_ (by rw [← pow_add])
      exact mul_le_mul_of_nonneg_left (by norm_num) (by positivity)
    have e2 : (1 : Rat) / 2 ^ 1075 ≤ 1 / 2 ^ 1050 := by
      rw [div_le_div_iff₀ (by positivity) (by positivity), one_mul, one_mul]
      exact pow_le_1024 (by omega)
    have e3 : (0 : Rat) < 1 / 2 ^ 1075 := by positivity
    generalize (1 : Rat) / 2 ^ 1050 = a at *
    generalize (1 : Rat) / 2 ^ 1075 = b at *
    generalize (1 : Rat) / 2 ^ 1000 = c at *
    have := abs_nonneg (x * g)
    linarith
  · intro m e he hm hE
    rw [he] at h4 ⊢
    rw [F.rnd_frac m e hm (by omega)] at h4
    exact h4 m e rfl hm hE

/-- Integer samples and finite gains. -/
theorem C89_gain (F : DFloats) (clip : AClip Int) (N : Nat) (sig : Signal Int) (h : clip.Carries N sig)
    (hint : clip.ai.format.sampleType = 0) (gains : List Nat) (hl : Spec.GainLegal gains clip.ai.format) (g : Nat → Rat)
    (hg : ∀ c, c < clip.ai.format.numChannels → ∃ b, Spec.GainFor gains c b ∧ Dbl.ofBits b = .fin (g c)) (oe : Option Int)
    (warned : Int → Bool) :
    ∃ out sig' clipS, audioGainCreate F clip gains oe warned = .ok out ∧ out.ai = clip.ai ∧
      (∀ c p, c < clip.ai.format.numChannels → p < N → Spec.Amplified clip.ai.format (g c) (sig c p) (sig' c p) (clipS c p)) ∧
      Spec.Delivers "AudioGain" out N sig' clipS (decide (oe.getD 0 ≠ 0)) warned := by
  have hf := valid_bytes h.info
  have hb : ∀ c, ∃ b, c < clip.ai.format.numChannels → Spec.GainFor gains c b ∧ Dbl.ofBits b = .fin (g c) := by
    intro c
    by_cases hc : c < clip.ai.format.numChannels
    · obtain ⟨b, hb⟩ := hg c hc; exact ⟨b, fun _ => hb⟩
    · exact ⟨0, fun h => absurd h hc⟩
  obtain ⟨bf, hb⟩ := Classical.axiomOfChoice hb
  have hx : ∀ c p, ∃ oc : Int × Bool, c < clip.ai.format.numChannels →
      (quantizeIntSample F (Dbl.mul F (.fin (sig c p)) (Dbl.ofBits (bf c))) (intSampleRange clip.ai.format)).2 = oc.2 ∧
      (quantizeIntSample F (Dbl.mul F (.fin (sig c p)) (Dbl.ofBits (bf c))) (intSampleRange clip.ai.format)).1.toInt
        clip.ai.format.bytesPerSample = .ok oc.1 ∧ Spec.Amplified clip.ai.format (g c) (sig c p) oc.1 oc.2 := by
    intro c p
    by_cases hc : c < clip.ai.format.numChannels
    · obtain ⟨o, k, h1, h2, h3⟩ := amplified_exists F hf (sig c p) (g c) (bf c) (hb c hc).2
      exact ⟨(o, k), fun _ => ⟨h1, h2, h3⟩⟩
    · exact ⟨(0, false), fun h => absurd h hc⟩
  have hx' : ∀ cp : Nat × Nat, ∃ oc : Int × Bool, _ := fun cp => hx cp.1 cp.2
  obtain ⟨of, hof⟩ := Classical.axiomOfChoice hx'
  obtain ⟨out, o1, o2, o3⟩ := gain_frames F clip N sig h gains hl oe warned (fun c p => (of (c, p)).1) (fun c p => (of (c, p)).2) (by
    intro src c i x p hc hp hsrc hxx
    subst hxx
    obtain ⟨a1, a2, -⟩ := hof (c, p) hc
    unfold gainSample
    rw [gainOf_eq (hb c hc).1]
    simp only [readSample, hsrc, Res.bind_ok]
    rw [if_neg (by rw [hint]; simp)]
    simp only at a1 a2
    rw [a2, a1]
    rfl)
  exact ⟨out, _, _, o1, o2, fun c p hc hp => (hof (c, p) hc).2.2, o3⟩

/-- Float samples: every sample is the product in single precision, nothing is clipped and nothing fails. -/
theorem C89_gain_float (F : DFloats) (clip : AClip Int) (N : Nat) (sig : Signal Int) (h : clip.Carries N sig)
    (hflt : clip.ai.format.sampleType = 1) (gains : List Nat) (hl : Spec.GainLegal gains clip.ai.format) (b : Nat → Nat)
    (hg : ∀ c, c < clip.ai.format.numChannels → Spec.GainFor gains c (b c)) (oe : Option Int) (warned : Int → Bool) :
    ∃ out, audioGainCreate F clip gains oe warned = .ok out ∧ out.ai = clip.ai ∧
      out.Carries N (fun c p => F.gainF (b c) (sig c p)) := by
  have hb4 : clip.ai.format.bytesPerSample = 4 := by
    have hv := h.info
    have := (valid_bytes hv).bytes
    unfold isValidAudioInfo isValidAudioFormat isValidFormatArgs at hv
    rw [hflt] at hv
    by_cases hb : clip.ai.format.bitsPerSample = 32
    · rw [this, hb]; rfl
    · simp [hb] at hv
  obtain ⟨out, o1, o2, o3⟩ := gain_frames F clip N sig h gains hl oe warned (fun c p => F.gainF (b c) (sig c p)) (fun _ _ => false) (by
    intro src c i x p hc hp hsrc hxx
    subst hxx
    unfold gainSample
    rw [gainOf_eq (hg c hc)]
    simp only [readSample, hsrc, Res.bind_ok]
    rw [if_pos ⟨hb4, hflt⟩]
    rfl)
  refine ⟨out, o1, o2, by rw [o2]; exact h.info, by rw [o2]; exact h.count, h.range, by rw [o2]; exact h.frames, ?_⟩
  intro k hk
  exact o3.ok k hk (Or.inl (by rintro ⟨c, p, _, _, _, h⟩; cases h))

/-- A wrong number of gain values is refused, whatever else is given. -/
theorem C89_arguments (F : DFloats) (clip : AClip Int) (gains : List Nat) (hl : ¬ Spec.GainLegal gains clip.ai.format) (oe : Option Int)
    (warned : Int → Bool) : ∃ m, audioGainCreate F clip gains oe warned = .err m := by
  unfold audioGainCreate
  rw [if_pos (by unfold Spec.GainLegal at hl; omega)]
  exact ⟨_, rfl⟩

/-- The number that is quantised determines sample and clipping. -/
theorem nearest_unique {q : Rat} {a b : Int} (ha : Spec.Nearest q a) (hb : Spec.Nearest q b) : a = b := by
  obtain ⟨a1, a2⟩ := ha
  obtain ⟨b1, b2⟩ := hb
  have ha' := abs_le.1 a1
  have hb' := abs_le.1 b1
  rcases lt_trichotomy a b with h | h | h
  · exfalso
    have h' : (a : Rat) + 1 ≤ b := by exact_mod_cast h
    have e1 : q - a = 1 / 2 := by linarith
    have e2 : q - b = -(1 / 2) := by linarith
    have c1 := a2 (by rw [e1]; norm_num)
    have c2 := b2 (by rw [e2]; norm_num)
    rw [abs_lt] at c1
    rcases le_total 0 (a : Rat) with hs | hs
    · rw [abs_of_nonneg hs] at c1; linarith
    · have hq : q < 0 ∨ 0 ≤ q := lt_or_ge _ _
      rcases hq with hq | hq
      · rw [abs_of_neg hq] at c2
        have : (b : Rat) ≤ 0 := by
          have : (b : Rat) = a + 1 := by linarith
          have ha0 : a < 0 := by
            have : (a : Rat) < 0 := by linarith
            exact_mod_cast this
          have hb0 : b ≤ 0 := by
            have : b = a + 1 := by exact_mod_cast this
            omega
          exact_mod_cast hb0
        rw [abs_of_nonpos this] at c2
        linarith
      · have : (a : Rat) = 0 ∨ (a : Rat) < 0 := by
          rcases eq_or_lt_of_le hs with h | h
          · exact Or.inl h
          · exact Or.inr h
        rcases this with h0 | h0
        · rw [h0] at c1; simp at c1; linarith
        · have : a ≤ -1 := by
            have : a < 0 := by exact_mod_cast h0
            omega
          have : (a : Rat) ≤ -1 := by exact_mod_cast this
          linarith
  · exact h
  · exfalso
    have h' : (b : Rat) + 1 ≤ a := by exact_mod_cast h
    have e1 : q - b = 1 / 2 := by linarith
    have e2 : q - a = -(1 / 2) := by linarith
    have c1 := b2 (by rw [e1]; norm_num)
    have c2 := a2 (by rw [e2]; norm_num)
    rw [abs_lt] at c1
    rcases le_total 0 (b : Rat) with hs | hs
    · rw [abs_of_nonneg hs] at c1; linarith
    · have hq : q < 0 ∨ 0 ≤ q := lt_or_ge _ _
      rcases hq with hq | hq
      · rw [abs_of_neg hq] at c2
        have : (a : Rat) ≤ 0 := by
          have : (a : Rat) = b + 1 := by linarith
          have ha0 : b < 0 := by
            have : (b : Rat) < 0 := by linarith
            exact_mod_cast this
          have hb0 : a ≤ 0 := by
            have : a = b + 1 := by exact_mod_cast this
            omega
          exact_mod_cast hb0
        rw [abs_of_nonpos this] at c2
        linarith
      · have : (b : Rat) = 0 ∨ (b : Rat) < 0 := by
          rcases eq_or_lt_of_le hs with h | h
          · exact Or.inl h
          · exact Or.inr h
        rcases this with h0 | h0
        · rw [h0] at c1; simp at c1; linarith
        · have : b ≤ -1 := by
            have : b < 0 := by exact_mod_cast h0
            omega
          have : (b : Rat) ≤ -1 := by exact_mod_cast this
          linarith

/-- A sample of the format: a multiple of the step in the range of the format. -/
def Spec.Proper (fmt : AudioFormat) (x : Int) : Prop :=
  ∃ n, x = n * Spec.step fmt ∧ -Spec.half fmt ≤ n ∧ n ≤ Spec.half fmt - 1

/-- Quantising a proper sample changes nothing. -/
theorem quantised_proper {fmt : AudioFormat} (hf : IntFormat fmt) {x out : Int} {clip : Bool} (hx : Spec.Proper fmt x)
    (h : Spec.Quantised fmt x out clip) : out = x ∧ clip = false := by
  obtain ⟨s, hs, e1, e2, e3, e4, e5, e6⟩ := range_eq hf
  obtain ⟨n, hn, h1, h2⟩ := hx
  obtain ⟨m, m1, m2, m3⟩ := h
  have hstep : (Spec.step fmt : Rat) ≠ 0 := by
    rw [e2]; push_cast; positivity
  have hq : (x : Rat) / Spec.step fmt = n := by
    rw [hn]; push_cast; exact mul_div_cancel_right₀ _ hstep
  rw [hq] at m1
  have : m = n := nearest_unique m1 ⟨by simp, by simp⟩
  subst this
  rw [if_neg (by omega), if_neg (by omega)] at m2
  refine ⟨by rw [m2, hn], ?_⟩
  rw [← Bool.not_eq_true, m3]
  omega

/-- Every result is a proper sample. -/
theorem quantised_is_proper {fmt : AudioFormat} (hf : IntFormat fmt) {v : Rat} {out : Int} {clip : Bool} (h : Spec.Quantised fmt v out clip) :
    Spec.Proper fmt out := by
  obtain ⟨s, hs, e1, e2, e3, e4, e5, e6⟩ := range_eq hf
  obtain ⟨n, -, h2, -⟩ := h
  refine ⟨_, h2, ?_, ?_⟩ <;> split <;> (try split) <;> omega

/-- Gain one changes nothing and never clips. -/
theorem C89_unity (F : DFloats) (clip : AClip Int) (N : Nat) (sig : Signal Int) (h : clip.Carries N sig)
    (hint : clip.ai.format.sampleType = 0) (b : Nat) (hb : Dbl.ofBits b = .fin 1)
    (hp : ∀ c p, c < clip.ai.format.numChannels → p < N → Spec.Proper clip.ai.format (sig c p)) (oe : Option Int) (warned : Int → Bool) :
    ∃ out, audioGainCreate F clip [b] oe warned = .ok out ∧ out.ai = clip.ai ∧ out.Carries N sig := by
  have hf := valid_bytes h.info
  obtain ⟨out, sig', clipS, o1, o2, o3, o4⟩ := C89_gain F clip N sig h hint [b] (Or.inl rfl) (fun _ => 1)
    (fun c _ => ⟨b, Or.inl rfl, hb⟩) oe warned
  have same : ∀ c p, c < clip.ai.format.numChannels → p < N → sig' c p = sig c p ∧ clipS c p = false := by
    intro c p hc hpN
    obtain ⟨s, hs, e1, e2, e3, e4, e5, e6⟩ := range_eq hf
    have hx := hp c p hc hpN
    have hq := (o3 c p hc hpN).exact (sig c p) 0 (by simp) (by
      obtain ⟨n, h1, h2, h3⟩ := hx
      rw [h1, e2]
      have p' : (0 : Int) < 2 ^ s := by positivity
      have b1 : -(Spec.half clip.ai.format * 2 ^ s) ≤ n * 2 ^ s := by
        have := Int.mul_le_mul_of_nonneg_right h2 p'.le
        linarith
      have b2 : n * 2 ^ s < Spec.half clip.ai.format * 2 ^ s := Int.mul_lt_mul_of_pos_right (by omega) p'
      omega) (by omega)
    rw [mul_one] at hq
    exact quantised_proper hf hx hq
  refine ⟨out, o1, o2, by rw [o2]; exact h.info, by rw [o2]; exact h.count, h.range, by rw [o2]; exact h.frames, ?_⟩
  intro k hk
  obtain ⟨f, f1, f2⟩ := o4.ok k hk (Or.inl (by
    rw [o2]
    rintro ⟨c, p, hc, hpN, _, hcl⟩
    rw [(same c p hc hpN).2] at hcl
    cases hcl))
  refine ⟨f, f1, f2.format, f2.len, ?_⟩
  intro c hc i hi
  rw [f2.samples c hc i hi, (same c _ (by rw [← o2]; exact hc) (by omega)).1]

/-! ## Concrete cases -/

/-- Exact arithmetic is one of the admitted arithmetics. -/
def exactFloats : DFloats where
  rnd q := q
  rnd_mono _ _ h := h
  rnd_close q := by rw [sub_self, abs_zero]; positivity
  rnd_frac _ _ _ _ := rfl
  rnd_big _ _ _ _ := rfl
  fused := false
  gainF _ x := x
  mixF _ := 0

/-- One channel of 16 bit samples. -/
def mono16 : AudioFormat := ⟨0, 16, 2, 1, 4⟩

/-- Two channels of 24 bit samples. -/
def stereo24 : AudioFormat := ⟨0, 24, 4, 2, 3⟩

/-- The bits of 1, 2 and 1/2. -/
def bits1 : Nat := 0x3ff0000000000000
def bits2 : Nat := 0x4000000000000000
def bitsHalf : Nat := 0x3fe0000000000000

theorem value_one : Dbl.ofBits bits1 = .fin 1 := by decide +kernel
theorem value_two : Dbl.ofBits bits2 = .fin 2 := by decide +kernel
theorem value_half : Dbl.ofBits bitsHalf = .fin (1 / 2) := by decide +kernel

/-- The conditions of `C89_gain`: two channels, two gains, one of them clipping. -/
example : (AClip.ofSignal stereo24 48000 5000 (fun c p => if c = 0 then 256 * p else 2147483392)).Carries 5000
      (fun c p => if c = 0 then 256 * p else 2147483392) ∧ Spec.GainLegal [bitsHalf, bits2] stereo24 ∧
    ∀ c, c < stereo24.numChannels → ∃ b, Spec.GainFor [bitsHalf, bits2] c b ∧
      Dbl.ofBits b = .fin ((fun c => if c = 0 then 1 / 2 else 2 : Nat → Rat) c) := by
  refine ⟨AClip.ofSignal_carries _ (by decide) (by decide), Or.inr rfl, ?_⟩
  intro c hc
  have : c = 0 ∨ c = 1 := by
    have : c < 2 := hc
    omega
  rcases this with h | h <;> subst h
  · exact ⟨bitsHalf, Or.inr ⟨by decide, rfl⟩, by rw [value_half]; simp⟩
  · exact ⟨bits2, Or.inr ⟨by decide, rfl⟩, by rw [value_two]; simp⟩

/-- What these gains make of single samples: halves are rounded away from zero, on the grid of 24 bits, and large values are
limited. -/
example (out : Int) (clip : Bool) (h : Spec.Amplified stereo24 (1 / 2) (-256) out clip) : out = -256 ∧ clip = false := by
  obtain ⟨n, h1, h2, h3⟩ := h.exact (-128) 0 (by norm_num) (by norm_num) (by norm_num)
  have hh : Spec.half stereo24 = 8388608 := by decide
  have hs : Spec.step stereo24 = 256 := by decide
  rw [hs] at h1
  have : n = -1 := nearest_unique h1 ⟨by norm_num [abs_le], by intro _; norm_num⟩
  subst this
  rw [hh, hs] at h2
  rw [hh] at h3
  refine ⟨by rw [h2]; norm_num, ?_⟩
  rw [← Bool.not_eq_true, h3]
  omega

example : Spec.Proper stereo24 (-2147483648) ∧ Spec.Proper stereo24 2147483392 ∧ ¬ Spec.Proper stereo24 1 :=
  ⟨⟨-8388608, by decide, by decide, by decide⟩, ⟨8388607, by decide, by decide, by decide⟩, by
    rintro ⟨n, h, -, -⟩
    have hs : Spec.step stereo24 = 256 := by decide
    rw [hs] at h
    omega⟩

/-- The conditions of `C89_gain_float` and of `C89_arguments`. -/
example : (AClip.ofSignal ⟨1, 32, 4, 1, 1⟩ 48000 10 (fun _ _ => (0x3f800000 : Int))).Carries 10 (fun _ _ => 0x3f800000) ∧
    Spec.GainLegal [bits2] ⟨1, 32, 4, 1, 1⟩ ∧ Spec.GainFor [bits2] 0 bits2 ∧ ¬ Spec.GainLegal [bits1, bits1, bits1] stereo24 :=
  ⟨AClip.ofSignal_carries _ (by decide) (by decide), Or.inl rfl, Or.inl rfl, by unfold Spec.GainLegal; decide⟩

/-- An infinite gain is accepted; multiplied by a zero sample it gives NaN, which is converted to an integer: undefined
behaviour, whatever the rounding. -/
theorem C89_any_gain_refuted (F : DFloats) : ∃ (clip : AClip Int) (sig : Signal Int) (gains : List Nat) (out : AClip Int),
    clip.Carries 1 sig ∧ clip.ai.format.sampleType = 0 ∧ Spec.GainLegal gains clip.ai.format ∧
    audioGainCreate F clip gains none (fun _ => false) = .ok out ∧ out.frame 0 = .ub := by
  have hinf : Dbl.ofBits 0x7ff0000000000000 = .inf false := by decide +kernel
  have hc : (AClip.ofSignal mono16 48000 1 (fun _ _ => (0 : Int))).Carries 1 (fun _ _ => 0) :=
    AClip.ofSignal_carries _ (by decide) (by decide)
  generalize hcl : AClip.ofSignal mono16 48000 1 (fun _ _ => (0 : Int)) = clip at hc
  have hfmt : clip.ai.format = mono16 := by rw [← hcl]; rfl
  obtain ⟨out, e1, e2, e3⟩ := create_frames (gainFilter F clip.ai [0x7ff0000000000000] (decide ((none : Option Int).getD 0 ≠ 0)) (fun _ => false))
    [clip] 1 hc.info hc.count hc.range (by
    intro k hk
    refine ⟨_, rfl, ?_⟩
    intro r hr
    simp only [List.mem_singleton] at hr
    subst hr
    exact ⟨by simp, clip, 1, _, rfl, hc⟩)
  refine ⟨clip, _, [0x7ff0000000000000], out, hc, by rw [hfmt]; rfl, Or.inl rfl, ?_, ?_⟩
  · unfold audioGainCreate
    rw [if_neg (by simp)]
    exact e1
  · obtain ⟨rq, fetch, r1, r2, r3, r4, r5⟩ := e3 0 (by decide)
    apply r5
    cases r1
    obtain ⟨src, f1, f2⟩ := r2 0 0 (by simp) clip 1 _ rfl hc
    show (deref (fetch 0 0) >>= _) = _
    rw [f1]
    have hl : src.len = 1 := f2.len
    simp only [deref, Res.bind_ok, hl]
    rw [newAudioFrame_ok (by omega)]
    simp only [Res.bind_ok]
    have hsrc : src.ch 0 0 = some 0 := f2.samples 0 (by rw [hfmt]; decide) 0 (by decide)
    have h3 : gainSample F clip.ai.format [0x7ff0000000000000] src 0 0 = .ub := by
      unfold gainSample
      rw [gainOf_eq (Or.inl rfl)]
      simp only [readSample, hsrc, Res.bind_ok]
      rw [hfmt, if_neg (by decide), hinf]
      rfl
    have ht : byChannel clip.ai.format.numChannels (1 : Int).toNat = [(0, 0)] := by rw [hfmt]; rfl
    rw [ht, sampleLoop, h3]
    rfl

/-- A clip that is too long for the numbers in the message: clipping in a frame behind the first 2^31 samples is undefined
behaviour, with and without `overflow_error`. -/
theorem C89_any_length_refuted (F : DFloats) (oe : Option Int) : ∃ (clip : AClip Int) (N : Nat) (sig : Signal Int) (gains : List Nat)
    (out : AClip Int), clip.Carries N sig ∧ clip.ai.format.sampleType = 0 ∧ gains = [bits2] ∧
    audioGainCreate F clip gains oe (fun _ => false) = .ok out ∧ out.frame 699050 = .ub := by
  have hc : (AClip.ofSignal mono16 48000 2147485000 (fun _ _ => (32767 : Int))).Carries 2147485000 (fun _ _ => 32767) :=
    AClip.ofSignal_carries _ (by decide) (by decide)
  obtain ⟨out, sig', clipS, o1, o2, o3, o4⟩ := C89_gain F _ 2147485000 _ hc rfl [bits2] (Or.inl rfl) (fun _ => 2)
    (fun _ _ => ⟨bits2, Or.inl rfl, value_two⟩) oe (fun _ => false)
  refine ⟨_, _, _, _, out, hc, rfl, rfl, o1, ?_⟩
  apply o4.ub 699050 (by unfold frameCount; omega)
  · rw [o2]
    refine ⟨0, 699050 * 3072, Nat.one_pos, by omega, by omega, ?_⟩
    obtain ⟨n, h1, h2, h3⟩ := (o3 0 (699050 * 3072) Nat.one_pos (by omega)).exact 65534 0 (by norm_num) (by norm_num) (by norm_num)
    rw [h3]
    right
    have : n = 65534 := nearest_unique h1 ⟨by
        show |(((32767 : Int) : Rat) * 2 / (Spec.step mono16 : Rat)) - _| ≤ _
        rw [show Spec.step mono16 = 1 by decide]; norm_num, by
        show |(((32767 : Int) : Rat) * 2 / (Spec.step mono16 : Rat)) - _| = _ → _
        rw [show Spec.step mono16 = 1 by decide]; norm_num⟩
    subst this
    show (65534 : Int) > Spec.half mono16 - 1
    decide
  · unfold Spec.Countable; omega
  · exact Or.inr rfl

end VS.Gain
