import Verif.Resample.Lemmas

/-!
# Frames: gathering, mixing, filtering, output
-/

namespace VS.Resample

set_option maxRecDepth 10000

open VS VS.Audio VS.Gain

theorem tab_ok {α : Type} (g : Nat → α) (f : Nat → Res α) : ∀ n, (∀ i, i < n → f i = .ok (g i)) →
    tab n f = .ok ((List.range n).map g) := by
  intro n
  induction n with
  | zero => intro _; rfl
  | succ n ih =>
    intro h
    rw [tab, ih (fun i hi => h i (by omega)), h n (by omega), List.range_succ, List.map_append]
    rfl

/-! ## Gathering -/

theorem gather_ok (F : RFloats) {fmt : AudioFormat} (hf : IntFormat fmt) (N : Nat) (sig : Signal Int) (c : Nat) (hc : c < fmt.numChannels)
    (hs : ∀ p, p < N → Spec.Stored fmt (sig c p)) (ff : Nat) (firstIn inCount : Int) :
    ∀ (frames : List (AFrame Int)) (j : Nat) (row : Nat → Int),
    (∀ k f, frames[k]? = some f → IsFrame fmt N sig (ff + j + k) f) →
    (∀ i : Nat, (i : Int) < inCount → row i = if 0 ≤ firstIn + i ∧ firstIn + i < N ∧ firstIn + i < ((ff + j) * 3072 : Nat)
      then Spec.normalised F fmt (sig c (firstIn + i).toNat) else 0) →
    (0 ≤ firstIn → (ff * 3072 : Nat) ≤ firstIn) → (firstIn < 0 → ff = 0) →
    ∃ row', gatherLoop F fmt c ff firstIn inCount j frames row = .ok row' ∧
      ∀ i : Nat, (i : Int) < inCount → row' i = if 0 ≤ firstIn + i ∧ firstIn + i < N ∧ firstIn + i < ((ff + j + frames.length) * 3072 : Nat)
        then Spec.normalised F fmt (sig c (firstIn + i).toNat) else 0 := by
  intro frames
  induction frames with
  | nil => intro j row _ hrow _ _; exact ⟨row, rfl, by simpa using hrow⟩
  | cons f rest ih =>
    intro j row hfr hrow hff1 hff2
    have hf0 := hfr 0 f rfl
    have hlen := hf0.len
    rw [gatherLoop]
    have hst : ((ff : Int) + (j : Int)) * SAMPLES = ((ff + j) * 3072 : Nat) := by unfold SAMPLES; push_cast; rfl
    rw [hst, hlen]
    generalize hS : (ff + j) * 3072 = S at *
    have hS2 : (ff + j + 0) * 3072 = S := by omega
    have hS3 : (ff + (j + 1)) * 3072 = S + 3072 := by omega
    have hrest : ∀ k g, rest[k]? = some g → IsFrame fmt N sig (ff + (j + 1) + k) g := by
      intro k g hk
      have := hfr (k + 1) g (by simpa using hk)
      rwa [show ff + j + (k + 1) = ff + (j + 1) + k by omega] at this
    have hfin : ff + (j + 1) + rest.length = ff + j + (f :: rest).length := by simp only [List.length_cons]; omega
    generalize hlo : max (S : Int) firstIn = lo
    generalize hhi : min ((S : Int) + ((min 3072 (N - S) : Nat) : Int)) (firstIn + inCount) = hi
    by_cases hlt : lo < hi
    · rw [if_pos hlt, if_neg (by omega)]
      have htab := tab_ok (fun i => Spec.normalised F fmt (sig c (lo.toNat + i)))
        (fun i => (readSample f c ((lo - (S : Int)).toNat + i)).bind fun x => .ok (gatherSample F fmt x)) (hi - lo).toNat (by
          intro i hi'
          have hsamp := hf0.samples c hc ((lo - (S : Int)).toNat + i) (by rw [hS2]; omega)
          simp only [readSample, hsamp]
          rw [hS2, show S + ((lo - (S : Int)).toNat + i) = lo.toNat + i by omega]
          show Res.ok _ = _
          rw [gather_eq F hf _ (hs _ (by omega))])
      have htab' : (tab (hi - lo).toNat fun i => do
          let x ← readSample f c ((lo - (S : Int)).toNat + i)
          pure (gatherSample F fmt x)) = .ok ((List.range (hi - lo).toNat).map fun i => Spec.normalised F fmt (sig c (lo.toNat + i))) := htab
      rw [htab']
      simp only [Res.bind_ok]
      obtain ⟨row', r1, r2⟩ := ih (j + 1)
        (fun i => if (lo - firstIn).toNat ≤ i ∧ i < (hi - firstIn).toNat then
          ((List.range (hi - lo).toNat).map fun i => Spec.normalised F fmt (sig c (lo.toNat + i))).getD (i - (lo - firstIn).toNat) 0
          else row i) hrest (by
        intro i hi'
        rw [hS3]
        by_cases hin : (lo - firstIn).toNat ≤ i ∧ i < (hi - firstIn).toNat
        · rw [if_pos hin, if_pos (by omega)]
          have : i - (lo - firstIn).toNat < (hi - lo).toNat := by omega
          simp only [List.getD_eq_getElem?_getD, List.getElem?_map, List.getElem?_range this, Option.map_some, Option.getD_some]
          congr 2
          omega
        · rw [if_neg hin, hrow i hi']
          by_cases hcond : 0 ≤ firstIn + (i : Int) ∧ firstIn + (i : Int) < N ∧ firstIn + (i : Int) < S
          · rw [if_pos hcond, if_pos (by omega)]
          · rw [if_neg hcond, if_neg]
            rintro ⟨a1, a2, a3⟩
            apply hcond
            refine ⟨a1, a2, ?_⟩
            push_cast at a3
            omega) hff1 hff2
      refine ⟨row', r1, ?_⟩
      rw [hfin] at r2
      exact r2
    · rw [if_neg hlt]
      obtain ⟨row', r1, r2⟩ := ih (j + 1) row hrest (by
        intro i hi'
        rw [hS3, hrow i hi']
        by_cases hcond : 0 ≤ firstIn + (i : Int) ∧ firstIn + (i : Int) < N ∧ firstIn + (i : Int) < S
        · rw [if_pos hcond, if_pos (by omega)]
        · rw [if_neg hcond, if_neg]
          rintro ⟨a1, a2, a3⟩
          apply hcond
          refine ⟨a1, a2, ?_⟩
          push_cast at a3
          omega) hff1 hff2
      refine ⟨row', r1, ?_⟩
      rw [hfin] at r2
      exact r2

/-! ## Mixing -/

theorem mix_ok (F : RFloats) (w : Nat → Nat → Int) (gather : Nat → Res (Nat → Int)) (s : Nat → Nat → Int) (L : Int) :
    ∀ (n ic : Nat) (rows : Nat → Nat → Int),
    (∀ c, ic ≤ c → c < ic + n → ∃ row, gather c = .ok row ∧ ∀ i : Nat, (i : Int) < L → row i = s c i) →
    ∃ rows', mixLoop F w gather (List.range' ic n) rows = .ok rows' ∧
      ∀ oc (i : Nat), (i : Int) < L → rows' oc i = Spec.mixFrom F (w oc) (fun c => s c i) ic n (rows oc i) := by
  intro n
  induction n with
  | zero => intro ic rows _; exact ⟨rows, rfl, fun _ _ _ => rfl⟩
  | succ n ih =>
    intro ic rows h
    obtain ⟨row, h1, h2⟩ := h ic (by omega) (by omega)
    rw [List.range'_succ, mixLoop, h1]
    simp only [Res.bind_ok]
    obtain ⟨rows', r1, r2⟩ := ih (ic + 1) (fun oc i => if isZero32 (w oc ic) then rows oc i else F.macF (rows oc i) (w oc ic) (row i))
      (fun c a b => h c (by omega) (by omega))
    refine ⟨rows', r1, ?_⟩
    intro oc i hi
    rw [r2 oc i hi, Spec.mixFrom, h2 i hi]
    simp only [isZero32, decide_eq_true_eq]

theorem rows_ok (F : RFloats) (weights : Option (Nat → Nat → Int)) (numIn numOut : Nat) (gather : Nat → Res (Nat → Int)) (s : Nat → Int → Int)
    (firstIn L : Int) (hw : weights = none → numIn = numOut)
    (h : ∀ c, c < numIn → ∃ row, gather c = .ok row ∧ ∀ i : Nat, (i : Int) < L → row i = s c (firstIn + i)) :
    ∃ rows, makeRows F weights numIn numOut gather = .ok rows ∧
      ∀ oc, oc < numOut → ∀ i : Nat, (i : Int) < L → rows oc i = Spec.mixed F weights numIn s oc (firstIn + i) := by
  unfold makeRows Spec.mixed
  cases weights with
  | some w =>
    simp only
    obtain ⟨rows', r1, r2⟩ := mix_ok F w gather (fun c i => s c (firstIn + i)) L numIn 0 (fun _ _ => 0) (fun c _ hc => h c (by omega))
    rw [List.range_eq_range']
    exact ⟨rows', r1, fun oc _ i hi => r2 oc i hi⟩
  | none =>
    simp only
    have hn := hw rfl
    subst hn
    have hex : ∃ g : Nat → Nat → Int, ∀ c, c < numIn → gather c = .ok (g c) ∧ ∀ i : Nat, (i : Int) < L → g c i = s c (firstIn + i) :=
      ⟨fun c => match gather c with | .ok r => r | _ => fun _ => 0, fun c hc => by
        obtain ⟨row, h1, h2⟩ := h c hc
        simp only [h1]
        exact ⟨trivial, h2⟩⟩
    obtain ⟨g, hg⟩ := hex
    rw [tab_ok g gather numIn (fun i hi => (hg i hi).1)]
    refine ⟨_, rfl, ?_⟩
    intro oc ho i hi
    simp only [List.getD_eq_getElem?_getD, List.getElem?_map, List.getElem?_range ho, Option.map_some, Option.getD_some]
    exact (hg oc ho).2 i hi

/-! ## Filtering -/

theorem step_pos (m p q : Nat) (hp : 0 < p) :
    (if m * q % p + q % p ≥ p then (m + 1) * q / p = m * q / p + q / p + 1 ∧ (m + 1) * q % p = m * q % p + q % p - p
      else (m + 1) * q / p = m * q / p + q / p ∧ (m + 1) * q % p = m * q % p + q % p) := by
  have e1 := Nat.div_add_mod (m * q) p
  have e2 := Nat.div_add_mod q p
  have l1 := Nat.mod_lt (m * q) hp
  have l2 := Nat.mod_lt q hp
  have e3 : (m + 1) * q = m * q + q := Nat.succ_mul m q
  rw [e3]
  generalize m * q = x at *
  generalize x / p = A at *
  generalize q / p = B at *
  generalize x % p = r at *
  generalize q % p = s at *
  split
  · rename_i h
    have e : x + q = (r + s - p) + p * (A + B + 1) := by
      rw [← e1, ← e2]
      have : p * (A + B + 1) = p * A + p * B + p := by ring
      omega
    rw [e, Nat.add_mul_div_left _ _ hp, Nat.add_mul_mod_self_left, Nat.div_eq_of_lt (by omega), Nat.mod_eq_of_lt (by omega)]
    omega
  · rename_i h
    have e : x + q = (r + s) + p * (A + B) := by
      rw [← e1, ← e2]
      have : p * (A + B) = p * A + p * B := by ring
      omega
    rw [e, Nat.add_mul_div_left _ _ hp, Nat.add_mul_mod_self_left, Nat.div_eq_of_lt (by omega), Nat.mod_eq_of_lt (by omega)]
    omega

/-- The bank of a ratio. -/
def bankOf (p q half : Nat) : Bank := ⟨p, q, (q / p : Nat), (q % p : Nat), half, (2 * half : Nat)⟩

theorem filter_ok (F : RFloats) (p q half : Nat) (hp : 0 < p) (firstIn inCount : Int) (mixed : Nat → Int) (s : Int → Int)
    (hm : ∀ i : Nat, (i : Int) < inCount → mixed i = s (firstIn + i)) (hp2 : p < 2 ^ 32) (hq2 : q < 2 ^ 32) :
    ∀ (todo m : Nat),
    (∀ i, i < todo → firstIn ≤ ((m + i) * q / p : Nat) - half + 1 ∧ ((m + i) * q / p : Nat) - half + 1 - firstIn + 2 * half ≤ inCount ∧
      (m + i) * q / p < 2 ^ 60) →
    filterLoop F (bankOf p q half) firstIn inCount mixed todo (m * q / p : Nat) (m * q % p : Nat) =
      .ok ((List.range todo).map fun i => Spec.filtered F p q half s (m + i)) := by
  intro todo
  induction todo with
  | zero => intro m _; rfl
  | succ todo ih =>
    intro m h
    obtain ⟨h1, h2, h3⟩ := h 0 (by omega)
    rw [Nat.add_zero] at h1 h2 h3
    have hph := Nat.mod_lt (m * q) hp
    have hph2 := Nat.mod_lt q hp
    have hqd : q / p ≤ q := Nat.div_le_self q p
    have hn1 : (0 : Int) ≤ ((m * q : Nat) : Int) / (p : Int) := Int.ediv_nonneg (by omega) (by omega)
    have hn2 : (0 : Int) ≤ (q : Int) / (p : Int) := Int.ediv_nonneg (by omega) (by omega)
    have ih' := ih (m + 1) (fun i hi => by
      have := h (i + 1) (by omega)
      rwa [show m + (i + 1) = m + 1 + i by omega] at this)
    have hstep := step_pos m p q hp
    have hlist : (List.range (todo + 1)).map (fun i => Spec.filtered F p q half s (m + i)) =
        Spec.filtered F p q half s m :: (List.range todo).map (fun i => Spec.filtered F p q half s (m + 1 + i)) := by
      rw [List.range_succ_eq_map, List.map_cons, List.map_map]
      congr 1
      apply List.map_congr_left
      intro i _
      simp only [Function.comp_apply]
      congr 1
      omega
    rw [hlist]
    have hv : F.filtF ((List.range (bankOf p q half).tapCount.toNat).map fun j =>
        (mixed ((((m * q / p : Nat) : Int) - (bankOf p q half).halfTaps + 1 - firstIn).toNat + j),
          F.tap (bankOf p q half).p (bankOf p q half).q (bankOf p q half).halfTaps ((m * q % p : Nat) : Int) j)) = Spec.filtered F p q half s m := by
      unfold Spec.filtered bankOf
      simp only [Int.toNat_natCast]
      congr 1
      apply List.map_congr_left
      intro j hj
      rw [List.mem_range] at hj
      congr 1
      rw [hm _ (by omega)]
      congr 1
      omega
    rw [filterLoop]
    simp only
    rw [if_neg (by simp only [bankOf]; omega), hv]
    rw [i64_ok (by simp only [bankOf]; unfold InI64 INT64_MAX INT64_MIN; omega)]
    simp only [Res.bind_ok]
    rw [i64_ok (by simp only [bankOf]; unfold InI64 INT64_MAX INT64_MIN; omega)]
    simp only [Res.bind_ok]
    split at hstep
    · rename_i hc
      rw [if_pos (by simp only [bankOf]; omega)]
      have a1 : ((m * q / p : Nat) : Int) + (bankOf p q half).baseStep + 1 = ((m + 1) * q / p : Nat) := by
        rw [hstep.1]; simp only [bankOf]; push_cast; rfl
      have a2 : ((m * q % p : Nat) : Int) + (bankOf p q half).phaseStep - (bankOf p q half).p = ((m + 1) * q % p : Nat) := by
        rw [hstep.2]; simp only [bankOf]; omega
      rw [a1, a2, ih']
      rfl
    · rename_i hc
      rw [if_neg (by simp only [bankOf]; omega)]
      have a1 : ((m * q / p : Nat) : Int) + (bankOf p q half).baseStep = ((m + 1) * q / p : Nat) := by
        rw [hstep.1]; simp only [bankOf]; push_cast; rfl
      have a2 : ((m * q % p : Nat) : Int) + (bankOf p q half).phaseStep = ((m + 1) * q % p : Nat) := by
        rw [hstep.2]; simp only [bankOf]; push_cast; rfl
      rw [a1, a2, ih']
      rfl

/-! ## Output -/

theorem outLoop_ok (f : Nat → Res (List Int × Bool)) (v : Nat → List Int) (cl : Nat → Bool) (L : Nat) :
    ∀ (todo : List Nat) (st : Bufs Int × Bool), (∀ oc ∈ todo, f oc = .ok (v oc, cl oc) ∧ (v oc).length = L) →
    ∃ ch, outLoop f todo st = .ok (ch, st.2 || todo.any cl) ∧
      ∀ c i, i < L → ch c i = if c ∈ todo then (v c)[i]? else st.1 c i := by
  intro todo
  induction todo with
  | nil => intro st _; exact ⟨st.1, by simp [outLoop], by simp⟩
  | cons oc rest ih =>
    intro st h
    obtain ⟨h1, h2⟩ := h oc (by simp)
    rw [outLoop, h1]
    simp only [Res.bind_ok]
    obtain ⟨ch, e1, e2⟩ := ih ⟨fun c i => if c = oc ∧ i < (v oc).length then (v oc)[i]? else st.1 c i, st.2 || cl oc⟩
      (fun c hc => h c (by simp [hc]))
    refine ⟨ch, ?_, ?_⟩
    · rw [e1]; simp [Bool.or_assoc]
    · intro c i hi
      rw [e2 c i hi]
      by_cases hc : c ∈ rest
      · rw [if_pos hc, if_pos (by simp [hc])]
      · rw [if_neg hc]
        simp only
        by_cases hoc : c = oc
        · subst hoc
          rw [if_pos ⟨rfl, by omega⟩, if_pos (by simp)]
        · rw [if_neg (by simp [hoc]), if_neg (by simp [hoc, hc])]

theorem convertPlane_ok (F : RFloats) (working dst : AudioFormat) (dt : DitherType) (read : Nat → Res Int) (length : Nat) (base : Nat)
    (c : Nat) (x : Nat → Int) (v : Nat → Int) (cl : Nat → Bool) (hr : ∀ i, i < length → read i = .ok (x i)) (hb : base + length < 2 ^ 62)
    (hv : ∀ i, i < length → convertSample F working dst dt ((base + i : Nat) : Int) c (x i) = .ok (v i, cl i)) :
    convertPlane F working dst dt read length base c = .ok ((List.range length).map v, (List.range length).any cl) := by
  unfold convertPlane
  have := tab_ok (fun i => (v i, cl i)) (fun i => (read i).bind fun x => (i64 ((base : Int) + i)).bind fun pos => convertSample F working dst dt pos c x)
    length (by
      intro i hi
      rw [hr i hi]
      show (i64 ((base : Int) + i)).bind _ = _
      rw [i64_ok (by unfold InI64 INT64_MAX INT64_MIN; omega)]
      have := hv i hi
      push_cast at this
      exact this)
  have t' : (tab length fun i => do
      let x ← read i
      let pos ← i64 ((base : Int) + i)
      convertSample F working dst dt pos c x) = .ok ((List.range length).map fun i => (v i, cl i)) := this
  rw [t']
  simp only [Res.bind_ok, Res.pure_eq, List.map_map]
  congr 2
  rw [List.any_map]
  rfl

/-- From the activations to what the node delivers. -/
theorem deliver (f : AFilter Int) (clip : AClip Int) (N M : Nat) (sig : Signal Int) (hcar : clip.Carries N sig)
    (hv : isValidAudioInfo f.ai = true) (hM : f.ai.numSamples = M) (hmax : (M : Int) ≤ MAX_SAMPLES) (oe : Bool) (sig' : Signal Int)
    (cl : Nat → Nat → Bool)
    (h : ∀ k, k < frameCount M → ∃ rq, f.initial k = .ok rq ∧ (∀ r ∈ rq, r.1 = 0 ∧ 0 ≤ r.2) ∧
      ∀ fetch : Nat → Int → Option (AFrame Int),
        (∀ k', (0, k') ∈ rq → ∃ g, fetch 0 k' = some g ∧ IsFrame clip.ai.format N sig (min k'.toNat (frameCount N - 1)) g) →
        ∃ ch, f.ready k fetch = finish oe (k * 3072 : Nat) (min 3072 (M - k * 3072) : Nat) f.ai.format
            (ch, (List.range f.ai.format.numChannels).any fun c => (List.range (min 3072 (M - k * 3072))).any fun i => cl c (k * 3072 + i)) ∧
          ∀ c, c < f.ai.format.numChannels → ∀ i, i < min 3072 (M - k * 3072) → ch c i = some (sig' c (k * 3072 + i))) :
    ∃ out, createAudioFilter f [clip] = .ok out ∧ out.ai = { f.ai with numFrames := frameCount M } ∧ Spec.Delivers out M sig' cl oe := by
  obtain ⟨out, e1, e2, e3⟩ := create_frames f [clip] M hv hM hmax (by
    intro k hk
    obtain ⟨rq, r1, r2, -⟩ := h k hk
    refine ⟨rq, r1, ?_⟩
    intro r hr
    obtain ⟨a, b⟩ := r2 r hr
    exact ⟨b, clip, N, sig, by rw [a]; rfl, hcar⟩)
  have hfmt : out.ai.format = f.ai.format := by rw [e2]
  have hclip : ∀ k, k < frameCount M → (((List.range f.ai.format.numChannels).any fun c =>
      (List.range (min 3072 (M - k * 3072))).any fun i => cl c (k * 3072 + i)) = true ↔ Spec.ClipsIn out.ai.format.numChannels M cl k) := by
    intro k hk
    have := lt_of_lt_frameCount hk
    rw [hfmt]
    simp only [List.any_eq_true, List.mem_range]
    constructor
    · rintro ⟨c, hc, i, hi, hcl⟩
      exact ⟨c, k * 3072 + i, hc, by omega, by omega, hcl⟩
    · rintro ⟨c, p, hc, hp, hk', hcl⟩
      exact ⟨c, hc, p - k * 3072, by omega, by rwa [show k * 3072 + (p - k * 3072) = p by omega]⟩
  have hfr : ∀ k, k < frameCount M → ∃ ch, ∃ fetch, f.ready k fetch = finish oe (k * 3072 : Nat) (min 3072 (M - k * 3072) : Nat) f.ai.format
        (ch, (List.range f.ai.format.numChannels).any fun c => (List.range (min 3072 (M - k * 3072))).any fun i => cl c (k * 3072 + i)) ∧
      (∀ c, c < f.ai.format.numChannels → ∀ i, i < min 3072 (M - k * 3072) → ch c i = some (sig' c (k * 3072 + i))) ∧
      (∀ r sig, f.ready k fetch = .ok r → IsFrame f.ai.format M sig k r → out.frame k = .ok r) ∧
      (∀ m, f.ready k fetch = .err m → out.frame k = .err m) := by
    intro k hk
    obtain ⟨rq, r1, r2, r3⟩ := h k hk
    obtain ⟨rq', fetch, f1, f2, f3, f4, -⟩ := e3 k hk
    rw [r1] at f1
    cases f1
    obtain ⟨ch, c1, c2⟩ := r3 fetch (fun k' hk' => f2 0 k' hk' clip N sig rfl hcar)
    exact ⟨ch, fetch, c1, c2, f3, f4⟩
  refine ⟨out, e1, e2, ?_, by rw [e2], ?_, ?_⟩
  · rw [e2]; exact hM
  · intro k hk hor
    obtain ⟨ch, fetch, c1, c2, c3, -⟩ := hfr k hk
    have hfin : f.ready k fetch = .ok ⟨f.ai.format, (min 3072 (M - k * 3072) : Nat), ch⟩ := by
      rw [c1]
      unfold finish
      rw [if_neg]
      rintro ⟨a, b⟩
      rcases hor with hor | hor
      · exact hor ((hclip k hk).1 a)
      · rw [hor] at b; cases b
    have hframe : IsFrame f.ai.format M sig' k ⟨f.ai.format, (min 3072 (M - k * 3072) : Nat), ch⟩ := ⟨rfl, rfl, c2⟩
    refine ⟨_, c3 _ sig' hfin hframe, ?_⟩
    rw [hfmt]
    exact hframe
  · intro k hk hcl ho
    obtain ⟨ch, fetch, c1, -, -, c4⟩ := hfr k hk
    apply c4
    rw [c1]
    unfold finish
    rw [if_pos ⟨(hclip k hk).2 hcl, ho⟩]
    have := lt_of_lt_frameCount hk
    have a2 : ((k * 3072 : Nat) : Int) + ((min 3072 (M - k * 3072) : Nat) : Int) - 1 = ((min M ((k + 1) * 3072) - 1 : Nat) : Int) := by
      omega
    rw [a2]

end VS.Resample
