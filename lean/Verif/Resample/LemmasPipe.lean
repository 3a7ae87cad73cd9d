import Verif.Resample.LemmasFrame

/-!
# The mixing and resampling pipeline
-/

namespace VS.Resample

set_option maxRecDepth 10000

open VS VS.Audio VS.Gain

theorem floorDiv_eq (a : Int) : floorDiv a SAMPLES = a / 3072 := by
  unfold floorDiv SAMPLES
  by_cases h : 0 ≤ a
  · rw [if_neg (by omega), Int.tdiv_eq_ediv_of_nonneg h]
  · obtain ⟨n, rfl⟩ : ∃ n : Nat, a = -(n : Int) := ⟨a.natAbs, by omega⟩
    rw [Int.neg_tdiv, Int.neg_tmod, Int.tdiv_eq_ediv_of_nonneg (by omega), Int.tmod_eq_emod_of_nonneg (by omega)]
    split <;> omega

/-- What is assumed of the rate ratio. -/
structure RatioOk (N M p q half : Nat) : Prop where
  p_pos : 0 < p
  p_lt : p ≤ 65536
  q_lt : q < 2 ^ 32
  qp : q ≤ 64 * p
  half_le : half ≤ 4096
  half_pos : 1 ≤ half
  len : M * q < N * p + q

theorem RatioOk.base_lt {N M p q half : Nat} (h : RatioOk N M p q half) {m : Nat} (hm : m < M) : m * q / p < N ∧ m * q < N * p := by
  have h1 : (m + 1) * q ≤ M * q := Nat.mul_le_mul_right q hm
  have h2 : (m + 1) * q = m * q + q := Nat.succ_mul m q
  have h3 := h.len
  have h4 : m * q < N * p := by omega
  exact ⟨(Nat.div_lt_iff_lt_mul h.p_pos).2 h4, h4⟩

theorem RatioOk.mono {p q : Nat} {m m' : Nat} (hm : m ≤ m') : m * q / p ≤ m' * q / p :=
  Nat.div_le_div_right (Nat.mul_le_mul_right q hm)

theorem RatioOk.near {N M p q half : Nat} (h : RatioOk N M p q half) (m j : Nat) : (m + j) * q / p ≤ m * q / p + j * 64 := by
  have h1 : (m + j) * q ≤ m * q + (j * 64) * p := by
    rw [Nat.add_mul]
    have := Nat.mul_le_mul_left j h.qp
    rw [← Nat.mul_assoc] at this
    omega
  have h2 := Nat.div_le_div_right (c := p) h1
  rwa [Nat.add_mul_div_right _ _ h.p_pos] at h2

/-- The span of frame `k`. -/
def spanOf (M : Nat) (ratio : Option (Nat × Nat × Nat)) (k : Nat) : Span :=
  let K := k * 3072
  let L := min 3072 (M - k * 3072)
  match ratio with
  | some (p, q, half) => ⟨K, L, (K * q / p : Nat), (K * q % p : Nat), (K * q / p : Nat) - half + 1, ((K + L - 1) * q / p : Nat) + half⟩
  | none => ⟨K, L, 0, 0, K, K + L - 1⟩

/-- The bank of a ratio. -/
def bankOpt (ratio : Option (Nat × Nat × Nat)) : Option Bank := ratio.map fun r => bankOf r.1 r.2.1 r.2.2

/-- The assumptions on the optional ratio. -/
def RatioOpt (N M : Nat) : Option (Nat × Nat × Nat) → Prop
  | some (p, q, half) => RatioOk N M p q half
  | none => M = N

theorem span_ok (d : Data) {N M : Nat} (hN : (N : Int) ≤ MAX_SAMPLES) (hM : d.ai.numSamples = M) (hMmax : (M : Int) ≤ MAX_SAMPLES)
    (ratio : Option (Nat × Nat × Nat)) (hb : d.bank = bankOpt ratio) (hr : RatioOpt N M ratio) (k : Nat) (hk : k < frameCount M) :
    d.span k = .ok (spanOf M ratio k) := by
  have hkM := lt_of_lt_frameCount hk
  unfold MAX_SAMPLES SAMPLES INT_MAX at hN hMmax
  have hK : (k : Int) * SAMPLES = ((k * 3072 : Nat) : Int) := by unfold SAMPLES; push_cast; rfl
  unfold Data.span
  rw [hK, i64_ok (by unfold InI64 INT64_MAX INT64_MIN; omega)]
  simp only [Res.bind_ok]
  have hL : min SAMPLES (d.ai.numSamples - ((k * 3072 : Nat) : Int)) = ((min 3072 (M - k * 3072) : Nat) : Int) := by
    rw [hM]; unfold SAMPLES; omega
  rw [hL, i32_ok (by unfold InI32 INT_MAX INT_MIN; omega)]
  simp only [Res.bind_ok]
  rw [hb]
  unfold spanOf
  cases ratio with
  | none => rfl
  | some r =>
    obtain ⟨p, q, half⟩ := r
    have hr : RatioOk N M p q half := hr
    have hN64 : N * p ≤ 8796093022208 * 65536 := Nat.mul_le_mul (by omega) hr.p_lt
    have b1 := hr.base_lt hkM
    have b2 := hr.base_lt (m := k * 3072 + min 3072 (M - k * 3072) - 1) (by omega)
    have e1 : ((k * 3072 : Nat) : Int) * (q : Int) = ((k * 3072 * q : Nat) : Int) := by push_cast; rfl
    have e2 : (((k * 3072 : Nat) : Int) + ((min 3072 (M - k * 3072) : Nat) : Int) - 1) * (q : Int) =
        (((k * 3072 + min 3072 (M - k * 3072) - 1) * q : Nat) : Int) := by
      have : ((k * 3072 : Nat) : Int) + ((min 3072 (M - k * 3072) : Nat) : Int) - 1 = ((k * 3072 + min 3072 (M - k * 3072) - 1 : Nat) : Int) := by
        omega
      rw [this, Int.natCast_mul]
    have hp := hr.p_pos
    have hh := hr.half_le
    simp only [bankOpt, Option.map_some, bankOf]
    rw [e1, e2]
    generalize k * 3072 * q = X at *
    generalize (k * 3072 + min 3072 (M - k * 3072) - 1) * q = Y at *
    have t1 : (X : Int).tdiv (p : Int) = ((X / p : Nat) : Int) := rfl
    have t2 : (Y : Int).tdiv (p : Int) = ((Y / p : Nat) : Int) := rfl
    have t3 : (X : Int).tmod (p : Int) = ((X % p : Nat) : Int) := rfl
    rw [i64_ok (by unfold InI64 INT64_MAX INT64_MIN; omega)]
    simp only [Res.bind_ok]
    rw [i64_ok (by unfold InI64 INT64_MAX INT64_MIN; omega)]
    simp only [Res.bind_ok]
    rw [t1, t2, t3]
    generalize X / p = A at *
    generalize Y / p = B at *
    rw [if_neg (by omega), i64_ok (by unfold InI64 INT64_MAX INT64_MIN; omega)]
    simp only [Res.bind_ok]
    rw [i64_ok (by unfold InI64 INT64_MAX INT64_MIN; omega)]
    rfl

/-- Output channel `c` at output position `m`, before the final conversion. -/
def work (F : RFloats) (d : Data) (N : Nat) (sig : Signal Int) (ratio : Option (Nat × Nat × Nat)) (c m : Nat) : Int :=
  Spec.resampled F ratio (Spec.mixed F d.weights d.src.numChannels (Spec.source F d.src N sig) c) m

theorem float_ready (F : RFloats) (d : Data) {N M : Nat} (hfmt : IntFormat d.src) (sig : Signal Int)
    (hst : ∀ c p, c < d.src.numChannels → p < N → Spec.Stored d.src (sig c p))
    (hN : (N : Int) ≤ MAX_SAMPLES) (hNpos : 1 ≤ N) (hM : d.ai.numSamples = M) (hMmax : (M : Int) ≤ MAX_SAMPLES) (hnf : d.srcNumFrames = frameCount N)
    (ratio : Option (Nat × Nat × Nat)) (hb : d.bank = bankOpt ratio) (hr : RatioOpt N M ratio)
    (hw : d.weights = none → d.src.numChannels = d.ai.format.numChannels)
    (v : Signal Int) (cl : Nat → Nat → Bool)
    (hv : ∀ c m, c < d.ai.format.numChannels → m < M → d.silent c = false →
      convertSample F floatFormat d.ai.format d.dither (m : Int) c (work F d N sig ratio c m) = .ok (v c m, cl c m))
    (hsil : ∀ c m, d.silent c = true → v c m = 0 ∧ cl c m = false)
    (k : Nat) (hk : k < frameCount M) :
    ∃ rq, (floatFilter F d).initial k = .ok rq ∧ (∀ r ∈ rq, r.1 = 0 ∧ 0 ≤ r.2) ∧
      ∀ fetch : Nat → Int → Option (AFrame Int),
        (∀ k', (0, k') ∈ rq → ∃ g, fetch 0 k' = some g ∧ IsFrame d.src N sig (min k'.toNat (frameCount N - 1)) g) →
        ∃ ch, (floatFilter F d).ready k fetch = finish d.overflowError (k * 3072 : Nat) (min 3072 (M - k * 3072) : Nat) d.ai.format
            (ch, (List.range d.ai.format.numChannels).any fun c => (List.range (min 3072 (M - k * 3072))).any fun i => cl c (k * 3072 + i)) ∧
          ∀ c, c < d.ai.format.numChannels → ∀ i, i < min 3072 (M - k * 3072) → ch c i = some (v c (k * 3072 + i)) := by
  have hkM := lt_of_lt_frameCount hk
  have hspan := span_ok d hN hM hMmax ratio hb hr k hk
  have hM' := hMmax
  unfold MAX_SAMPLES SAMPLES INT_MAX at hM'
  have hN' := hN
  unfold MAX_SAMPLES SAMPLES INT_MAX at hN'
  -- facts about the span
  have facts : (spanOf M ratio k).firstOut = (k * 3072 : Nat) ∧ (spanOf M ratio k).outCount = (min 3072 (M - k * 3072) : Nat) ∧
      (spanOf M ratio k).firstIn ≤ (spanOf M ratio k).lastIn + 1 ∧ (spanOf M ratio k).lastIn - (spanOf M ratio k).firstIn + 1 < 2 ^ 20 := by
    unfold spanOf
    cases ratio with
    | none => refine ⟨rfl, rfl, ?_, ?_⟩ <;> simp only <;> omega
    | some r =>
      obtain ⟨p, q, half⟩ := r
      have hr : RatioOk N M p q half := hr
      have h1 : k * 3072 * q / p ≤ (k * 3072 + min 3072 (M - k * 3072) - 1) * q / p := RatioOk.mono (by omega)
      have h2 := hr.near (k * 3072) (min 3072 (M - k * 3072) - 1)
      rw [show k * 3072 + (min 3072 (M - k * 3072) - 1) = k * 3072 + min 3072 (M - k * 3072) - 1 by omega] at h2
      have h3 := hr.half_le
      simp only
      generalize k * 3072 * q / p = A at *
      generalize (k * 3072 + min 3072 (M - k * 3072) - 1) * q / p = B at *
      refine ⟨trivial, trivial, ?_, ?_⟩ <;> omega
  obtain ⟨f1, f2, f3, f4⟩ := facts
  generalize hs : spanOf M ratio k = s at *
  have hff0 : 0 ≤ s.firstFrame := by unfold Span.firstFrame; omega
  have hff : s.firstFrame = max (s.firstIn / 3072) 0 := by unfold Span.firstFrame; rw [floorDiv_eq]
  have hnfr : s.frames d.srcNumFrames = (min (s.lastIn / 3072) ((frameCount N : Int) - 1) - s.firstFrame + 1).toNat := by
    unfold Span.frames; rw [floorDiv_eq, hnf]
  generalize hnum : s.frames d.srcNumFrames = nfr at *
  obtain ⟨ff, hffn⟩ : ∃ ff : Nat, s.firstFrame = ff := ⟨s.firstFrame.toNat, by omega⟩
  refine ⟨(List.range nfr).map fun j : Nat => (0, s.firstFrame + j), ?_, ?_, ?_⟩
  · show (d.span k >>= fun s => pure ((List.range (s.frames d.srcNumFrames)).map fun j : Nat => ((0 : Nat), s.firstFrame + j))) = _
    rw [hspan]
    simp only [Res.bind_ok, Res.pure_eq, hnum]
  · intro r hr
    simp only [List.mem_map, List.mem_range] at hr
    obtain ⟨j, hj, rfl⟩ := hr
    exact ⟨rfl, by simp only; omega⟩
  · intro fetch hfetch
    have hg : ∃ g : Nat → AFrame Int, ∀ j, j < nfr → fetch 0 (s.firstFrame + j) = some (g j) ∧ IsFrame d.src N sig (ff + j) (g j) := by
      refine ⟨fun j => (fetch 0 (s.firstFrame + j)).getD ⟨d.src, 0, fun _ _ => none⟩, fun j hj => ?_⟩
      obtain ⟨g, g1, g2⟩ := hfetch (s.firstFrame + j) (by simp only [List.mem_map, List.mem_range]; exact ⟨j, hj, rfl⟩)
      rw [show min (s.firstFrame + (j : Int)).toNat (frameCount N - 1) = ff + j by omega] at g2
      simp only [g1, Option.getD_some]
      exact ⟨trivial, g2⟩
    obtain ⟨g, hg⟩ := hg
    have htab := tab_ok g (fun j => deref (fetch 0 (s.firstFrame + j))) nfr (fun j hj => by rw [(hg j hj).1]; rfl)
    obtain ⟨cnt, hcnt⟩ : ∃ cnt : Nat, s.lastIn - s.firstIn + 1 = cnt := ⟨(s.lastIn - s.firstIn + 1).toNat, by omega⟩
    have hgather : ∀ c, c < d.src.numChannels → ∃ row, gatherLoop F d.src c s.firstFrame s.firstIn cnt 0 ((List.range nfr).map g) (fun _ => 0) = .ok row ∧
        ∀ i : Nat, (i : Int) < cnt → row i = Spec.source F d.src N sig c (s.firstIn + i) := by
      intro c hc
      obtain ⟨row, r1, r2⟩ := gather_ok F hfmt N sig c hc (fun p hp => hst c p hc hp) ff s.firstIn cnt ((List.range nfr).map g) 0 (fun _ => 0) (by
        intro j f hj
        simp only [List.getElem?_map, Option.map_eq_some_iff] at hj
        obtain ⟨a, ha, rfl⟩ := hj
        have := List.getElem?_eq_some_iff.1 ha
        obtain ⟨hlt, hval⟩ := this
        rw [List.length_range] at hlt
        rw [List.getElem_range] at hval
        subst hval
        exact (hg j hlt).2) (by
        intro i hi
        rw [if_neg]
        rintro ⟨a1, a2, a3⟩
        push_cast at a3
        omega) (by omega) (by omega)
      refine ⟨row, by rw [hffn]; exact r1, ?_⟩
      intro i hi
      rw [r2 i hi]
      unfold Spec.source
      simp only [List.length_map, List.length_range]
      by_cases hc2 : 0 ≤ s.firstIn + (i : Int) ∧ s.firstIn + (i : Int) < N
      · rw [if_pos hc2, if_pos]
        refine ⟨hc2.1, hc2.2, ?_⟩
        unfold frameCount at hnfr
        push_cast
        omega
      · rw [if_neg hc2, if_neg (by rintro ⟨a, b, -⟩; exact hc2 ⟨a, b⟩)]
    obtain ⟨rows, hrows1, hrows2⟩ := rows_ok F d.weights d.src.numChannels d.ai.format.numChannels
      (fun c => gatherLoop F d.src c s.firstFrame s.firstIn cnt 0 ((List.range nfr).map g) fun _ => 0)
      (Spec.source F d.src N sig) s.firstIn cnt hw hgather
    have houtch : ∀ oc ∈ List.range d.ai.format.numChannels, outChannel F d s cnt rows oc =
        .ok ((List.range (min 3072 (M - k * 3072))).map (fun i => v oc (k * 3072 + i)),
          (List.range (min 3072 (M - k * 3072))).any fun i => cl oc (k * 3072 + i)) ∧
        ((List.range (min 3072 (M - k * 3072))).map (fun i => v oc (k * 3072 + i))).length = min 3072 (M - k * 3072) := by
      intro oc hoc
      rw [List.mem_range] at hoc
      refine ⟨?_, by simp⟩
      have hLt : s.outCount.toNat = min 3072 (M - k * 3072) := by rw [f2]; rfl
      unfold outChannel
      cases hsl : d.silent oc with
      | true =>
        rw [if_pos rfl, hLt]
        have z1 : (List.range (min 3072 (M - k * 3072))).map (fun i => v oc (k * 3072 + i)) = List.replicate (min 3072 (M - k * 3072)) 0 := by
          rw [List.eq_replicate_iff]
          refine ⟨by simp, ?_⟩
          intro b hb
          simp only [List.mem_map] at hb
          obtain ⟨i, -, rfl⟩ := hb
          exact (hsil oc _ hsl).1
        have z2 : ((List.range (min 3072 (M - k * 3072))).any fun i => cl oc (k * 3072 + i)) = false := by
          rw [List.any_eq_false]
          intro i _
          rw [(hsil oc _ hsl).2]; simp
        rw [z1, z2]
      | false =>
        rw [if_neg (by simp), hb]
        have hconv : ∀ read : Nat → Res Int, (∀ i, i < min 3072 (M - k * 3072) → read i = .ok (work F d N sig ratio oc (k * 3072 + i))) →
            convertPlane F floatFormat d.ai.format d.dither read (min 3072 (M - k * 3072)) ((k * 3072 : Nat) : Int) oc =
            .ok ((List.range (min 3072 (M - k * 3072))).map (fun i => v oc (k * 3072 + i)),
              (List.range (min 3072 (M - k * 3072))).any fun i => cl oc (k * 3072 + i)) := by
          intro read hread
          exact convertPlane_ok F floatFormat d.ai.format d.dither read (min 3072 (M - k * 3072)) (k * 3072) oc _ _ _ hread (by omega)
            (fun i hi => hv oc (k * 3072 + i) hoc (by omega) hsl)
        cases ratio with
        | none =>
          simp only [bankOpt, Option.map_none]
          rw [hLt, f1]
          apply hconv
          intro i hi
          have hfi : s.firstIn = ((k * 3072 : Nat) : Int) := by rw [← hs]; rfl
          have hla : s.lastIn = ((k * 3072 : Nat) : Int) + ((min 3072 (M - k * 3072) : Nat) : Int) - 1 := by rw [← hs]; rfl
          rw [hrows2 oc hoc i (by omega)]
          unfold work Spec.resampled
          simp only
          congr 2
          rw [hfi]; push_cast; rfl
        | some r =>
          obtain ⟨p, q, half⟩ := r
          have hr : RatioOk N M p q half := hr
          have hfi : s.firstIn = ((k * 3072 * q / p : Nat) : Int) - half + 1 := by rw [← hs]; rfl
          have hla : s.lastIn = (((k * 3072 + min 3072 (M - k * 3072) - 1) * q / p : Nat) : Int) + half := by rw [← hs]; rfl
          have hba : s.firstBase = ((k * 3072 * q / p : Nat) : Int) := by rw [← hs]; rfl
          have hph : s.firstPhase = ((k * 3072 * q % p : Nat) : Int) := by rw [← hs]; rfl
          simp only [bankOpt, Option.map_some]
          rw [hLt, f1, hba, hph]
          have hfl := filter_ok F p q half hr.p_pos s.firstIn cnt (rows oc)
            (Spec.mixed F d.weights d.src.numChannels (Spec.source F d.src N sig) oc) (fun i hi => hrows2 oc hoc i hi)
            (by have := hr.p_lt; omega) hr.q_lt (min 3072 (M - k * 3072)) (k * 3072) (by
              intro i hi
              have b1 : k * 3072 * q / p ≤ (k * 3072 + i) * q / p := RatioOk.mono (by omega)
              have b2 : (k * 3072 + i) * q / p ≤ (k * 3072 + min 3072 (M - k * 3072) - 1) * q / p := RatioOk.mono (by omega)
              have b3 := (hr.base_lt (m := k * 3072 + i) (by omega)).1
              generalize k * 3072 * q / p = A at *
              generalize (k * 3072 + min 3072 (M - k * 3072) - 1) * q / p = B at *
              generalize (k * 3072 + i) * q / p = C at *
              refine ⟨by omega, by omega, by omega⟩)
          rw [hfl]
          simp only [Res.bind_ok]
          apply hconv
          intro i hi
          rw [List.getElem?_map, List.getElem?_range hi]
          rfl
    obtain ⟨ch, hch1, hch2⟩ := outLoop_ok (outChannel F d s cnt rows)
      (fun oc => (List.range (min 3072 (M - k * 3072))).map (fun i => v oc (k * 3072 + i)))
      (fun oc => (List.range (min 3072 (M - k * 3072))).any fun i => cl oc (k * 3072 + i)) (min 3072 (M - k * 3072))
      (List.range d.ai.format.numChannels) ((fun _ _ => none), false) houtch
    refine ⟨ch, ?_, ?_⟩
    · unfold floatFilter
      simp only
      rw [hspan]
      simp only [Res.bind_ok]
      rw [hnum, htab]
      simp only [Res.bind_ok]
      rw [newAudioFrame_ok (by rw [f2]; omega)]
      simp only [Res.bind_ok]
      rw [i32_ok (by unfold InI32 INT_MAX INT_MIN; omega), hcnt]
      simp only [Res.bind_ok]
      rw [hrows1]
      simp only [Res.bind_ok]
      rw [hch1]
      simp only [Res.bind_ok, f1, f2, Bool.false_or]
    · intro c hc i hi
      rw [hch2 c i hi, if_pos (List.mem_range.2 hc), List.getElem?_map, List.getElem?_range hi]
      rfl

end VS.Resample
