import Verif.Audio.Lemmas

/-!
# C34: AudioSplice
-/

namespace VS.Audio

set_option maxRecDepth 10000

variable {α : Type}

/-- First sample of part `i`. -/
def startOf (parts : List (Nat × Signal α)) (i : Nat) : Nat := ((parts.take i).map (·.1)).sum

theorem startOf_succ {parts : List (Nat × Signal α)} {i : Nat} {p : Nat × Signal α} (h : parts[i]? = some p) :
    startOf parts (i + 1) = startOf parts i + p.1 := by
  unfold startOf
  rw [List.take_add_one, h]
  simp

theorem startOf_length (parts : List (Nat × Signal α)) (i : Nat) (h : parts.length ≤ i) :
    startOf parts i = (parts.map (·.1)).sum := by
  unfold startOf
  rw [List.take_of_length_le h]

theorem concat_at {dflt : Signal α} : ∀ {parts : List (Nat × Signal α)} {i : Nat} {p : Nat × Signal α},
    parts[i]? = some p → ∀ c j, j < p.1 → Spec.concat parts dflt c (startOf parts i + j) = p.2 c j := by
  intro parts
  induction parts with
  | nil => intro i p h; simp at h
  | cons x xs ih =>
    intro i p h c j hj
    obtain ⟨n, s⟩ := x
    cases i with
    | zero =>
      simp at h
      subst h
      simp [startOf, Spec.concat, hj]
    | succ i =>
      simp at h
      have := ih h c j hj
      have e : startOf ((n, s) :: xs) (i + 1) = n + startOf xs i := by simp [startOf]
      rw [e]
      unfold Spec.concat
      rw [if_neg (by omega), show n + startOf xs i + j - n = startOf xs i + j by omega]
      exact this

/-- What is known about the clips being joined. -/
structure Joinable (clips : List (AClip α)) (parts : List (Nat × Signal α)) (fmt : AudioFormat) : Prop where
  length : clips.length = parts.length
  carries : ∀ (i : Nat) (c : AClip α) (p : Nat × Signal α), clips[i]? = some c → parts[i]? = some p → c.Carries p.1 p.2
  channels : ∀ (i : Nat) (c : AClip α), clips[i]? = some c → c.ai.format.numChannels = fmt.numChannels

theorem splice_loop (clips : List (AClip α)) (parts : List (Nat × Signal α)) (fmt : AudioFormat) (dflt : Signal α)
    (hj : Joinable clips parts fmt) (T D k : Nat) (hT : T = (parts.map (·.1)).sum) (hD : D = min 3072 (T - k * 3072)) :
    ∀ (rem i q off o : Nat) (p : Nat × Signal α), 0 < rem → parts[i]? = some p → off < 3072 →
      q * 3072 + off < p.1 → o + rem = D → startOf parts i + q * 3072 + off = k * 3072 + o →
      ∃ reqs, spliceReqLoop (clips.map (·.ai.numSamples)) (clips.map (·.ai.numFrames)) i q off rem = .ok reqs ∧
        (∀ r ∈ reqs, 0 ≤ r.2 ∧ ∃ c M s, clips[r.1]? = some c ∧ AClip.Carries c M s) ∧
        ∀ fetch : Nat → Int → Option (AFrame α),
          (∀ i k', (i, k') ∈ reqs → ∀ c M s, clips[i]? = some c → AClip.Carries c M s →
            ∃ g, fetch i k' = some g ∧ IsFrame c.ai.format M s (min k'.toNat (frameCount M - 1)) g) →
          ∀ dst, Filled fmt D (fun c i => Spec.concat parts dflt c (k * 3072 + i)) o dst →
            ∃ r, spliceCopyLoop fmt (clips.map (·.ai.numFrames)) fetch i q off rem dst o = .ok r ∧
              IsFrame fmt T (Spec.concat parts dflt) k r := by
  intro rem
  induction rem using Nat.strongRecOn with
  | ind rem ih =>
    intro i q off o p hrem hp hoff hq ho hpos
    have hi : i < parts.length := (List.getElem?_eq_some_iff.1 hp).1
    obtain ⟨c, hc⟩ : ∃ c, clips[i]? = some c := ⟨clips[i]'(by rw [hj.length]; exact hi), by simp [hj.length, hi]⟩
    have hcar := hj.carries i c p hc hp
    have hns : (clips.map (·.ai.numSamples))[i]? = some c.ai.numSamples := by simp [hc]
    have hnf : (clips.map (·.ai.numFrames))[i]? = some c.ai.numFrames := by simp [hc]
    have hcs := hcar.count
    have hcf := hcar.frames
    have hq' : q < frameCount p.1 := lt_frameCount (by omega)
    obtain ⟨len, hlen⟩ : ∃ len, len = min (3072 - off) (p.1 - q * 3072 - off) := ⟨_, rfl⟩
    have hlen0 : 0 < len := by omega
    have hrs : min (SAMPLES - (off : Int)) (c.ai.numSamples - (q : Int) * SAMPLES - (off : Int)) = (len : Int) := by
      rw [hcs]; unfold SAMPLES; omega
    have hfc : frameCount p.1 = (p.1 + 3071) / 3072 := rfl
    have hD3 : D ≤ 3072 := by omega
    -- the frame copied in this iteration
    have hframe : ∀ g, IsFrame c.ai.format p.1 p.2 q g → g.len - (off : Int) = len ∧
        ∀ ch, ch < fmt.numChannels → ∀ j, j < min len rem →
          g.ch ch (off + j) = some ((fun c i => Spec.concat parts dflt c (k * 3072 + i)) ch (o + j)) := by
      intro g hg
      refine ⟨by rw [hg.len]; omega, ?_⟩
      intro ch hch j hj'
      rw [hg.samples ch (by rw [hj.channels i c hc]; exact hch) (off + j) (by omega)]
      simp only
      rw [show k * 3072 + (o + j) = startOf parts i + (q * 3072 + (off + j)) by omega, concat_at hp _ _ (by omega)]
    have hreq0 : (0 : Int) ≤ (q : Int) ∧ ∃ c M s, clips[i]? = some c ∧ AClip.Carries c M s :=
      ⟨by omega, c, p.1, p.2, hc, hcar⟩
    by_cases hmore : len < rem
    · -- another iteration
      obtain ⟨i', q', p', hi', hq1, hp', hlt', hst'⟩ : ∃ (i' q' : Nat) (p' : Nat × Signal α),
          (if (q : Int) + 1 > c.ai.numFrames - 1 then i + 1 else i) = i' ∧
          (if (q : Int) + 1 > c.ai.numFrames - 1 then 0 else (q : Int) + 1) = (q' : Int) ∧
          parts[i']? = some p' ∧ q' * 3072 < p'.1 ∧ startOf parts i' + q' * 3072 = k * 3072 + (o + len) := by
        by_cases hw : (q : Int) + 1 > c.ai.numFrames - 1
        · rw [if_pos hw, if_pos hw]
          have hwhole : q * 3072 + off + len = p.1 := by omega
          have hs := startOf_succ hp
          have hlt : i + 1 < parts.length := by
            apply Classical.byContradiction
            intro hge
            have := startOf_length parts (i + 1) (by omega)
            omega
          refine ⟨i + 1, 0, parts[i + 1], rfl, rfl, by simp [hlt], ?_, by omega⟩
          have hlt' : i + 1 < clips.length := by rw [hj.length]; exact hlt
          have := (hj.carries (i + 1) clips[i + 1] parts[i + 1] (by simp [hlt']) (by simp [hlt])).len_pos
          omega
        · rw [if_neg hw, if_neg hw]
          exact ⟨i, q + 1, p, rfl, by omega, hp, by omega, by omega⟩
      obtain ⟨reqs, hr1, hr2, hr3⟩ := ih (rem - len) (by omega) i' q' 0 (o + len) p' (by omega) hp' (by omega)
        (by omega) (by omega) (by omega)
      refine ⟨(i, (q : Int)) :: reqs, ?_, ?_, ?_⟩
      · unfold spliceReqLoop
        simp only [hns, hnf, hrs]
        rw [dif_neg (by omega), if_pos (by omega), hi', hq1,
          show (rem : Int) - (len : Int) = ((rem - len : Nat) : Int) by omega]
        simp only [Int.natCast_zero] at hr1
        rw [hr1]; rfl
      · intro r hr
        rcases List.mem_cons.1 hr with rfl | hr
        · exact hreq0
        · exact hr2 r hr
      · intro fetch hf dst hdst
        obtain ⟨g, hg1, hg2⟩ := hf i q (by simp) c p.1 p.2 hc hcar
        rw [show min ((q : Int)).toNat (frameCount p.1 - 1) = q by omega] at hg2
        obtain ⟨hgl, hgs⟩ := hframe g hg2
        obtain ⟨d, ch, hs1, hs2, hs3⟩ := fill_step (off := off) (n := len) (src := g) hdst hD3 ho hrem (by omega)
          (by omega) (fun c hc j hjj => hgs c hc j (by omega))
        obtain ⟨r, hrr1, hrr2⟩ := hr3 fetch (fun i k' hm => hf i k' (by simp [hm])) _ hs3
        refine ⟨r, ?_, hrr2⟩
        unfold spliceCopyLoop
        simp only [hg1, hnf, hgl]
        rw [dif_neg (by omega), hs1]
        simp only [Res.bind]
        rw [show min (len : Int) (rem : Int) = (len : Int) by omega, hs2]
        simp only
        rw [if_pos (by omega), hi', hq1,
          show (rem : Int) - (len : Int) = ((rem - len : Nat) : Int) by omega,
          show (o : Int) + (len : Int) = ((o + len : Nat) : Int) by omega]
        simp only [Int.natCast_zero] at hrr1
        exact hrr1
    · -- last iteration
      refine ⟨[(i, (q : Int))], ?_, ?_, ?_⟩
      · unfold spliceReqLoop
        simp only [hns, hnf, hrs]
        rw [dif_neg (by omega), if_neg (by omega)]
      · intro r hr
        simp at hr
        subst hr
        exact hreq0
      · intro fetch hf dst hdst
        obtain ⟨g, hg1, hg2⟩ := hf i q (by simp) c p.1 p.2 hc hcar
        rw [show min ((q : Int)).toNat (frameCount p.1 - 1) = q by omega] at hg2
        obtain ⟨hgl, hgs⟩ := hframe g hg2
        obtain ⟨d, ch, hs1, hs2, hs3⟩ := fill_step (off := off) (n := rem) (src := g) hdst hD3 ho hrem (by omega)
          (by omega) (fun c hc j hjj => hgs c hc j (by omega))
        refine ⟨{ d with ch := ch }, ?_, hs3.1, ?_, ?_⟩
        · unfold spliceCopyLoop
          simp only [hg1, hnf, hgl]
          rw [dif_neg (by omega), hs1]
          simp only [Res.bind]
          rw [show min (len : Int) (rem : Int) = (rem : Int) by omega, hs2]
          simp only
          rw [if_neg (by omega)]
        · rw [hs3.2.1, hD]
        · intro c hc i hi
          exact hs3.2.2 c hc i (by omega)

/-! ### The search for the first clip -/

/-- Running totals. -/
def cums (prev : Nat) : List Nat → List Int
  | [] => []
  | n :: rest => ((prev + n : Nat) : Int) :: cums (prev + n) rest

theorem find_spec (S : Nat) : ∀ (ns : List Nat) (i prev : Nat), prev ≤ S → S < prev + ns.sum →
    ∃ j n, ns[j]? = some n ∧ prev + (ns.take j).sum ≤ S ∧ S < prev + (ns.take j).sum + n ∧
      spliceFind S i prev (cums prev ns) = some (i + j, ((S - (prev + (ns.take j).sum) : Nat) : Int)) := by
  intro ns
  induction ns with
  | nil => intro i prev h1 h2; simp at h2; omega
  | cons n rest ih =>
    intro i prev h1 h2
    simp only [List.sum_cons] at h2
    by_cases h : S < prev + n
    · refine ⟨0, n, by simp, by simpa using h1, by simpa using h, ?_⟩
      simp only [cums, spliceFind]
      rw [if_pos (by omega)]
      simp
      omega
    · obtain ⟨j, m, a, b, c, d⟩ := ih (i + 1) (prev + n) (by omega) (by omega)
      refine ⟨j + 1, m, by simpa using a, by simp; omega, by simp; omega, ?_⟩
      simp only [cums, spliceFind]
      rw [if_neg (by omega), d]
      simp
      omega

theorem cum_ok (ns : List Nat) : ∀ prev : Nat, ((prev + ns.sum : Nat) : Int) ≤ MAX_SAMPLES →
    spliceCum prev (ns.map fun n : Nat => (n : Int)) = some (cums prev ns) := by
  induction ns with
  | nil => intro prev _; rfl
  | cons n rest ih =>
    intro prev h
    simp only [List.sum_cons] at h
    simp only [List.map_cons, spliceCum, cums]
    rw [if_neg (by omega), show (prev : Int) + (n : Int) = ((prev + n : Nat) : Int) by omega,
      ih (prev + n) (by omega)]
    rfl

theorem cum_long (ns : List Nat) : ∀ prev : Nat, (prev : Int) ≤ MAX_SAMPLES →
    ((prev + ns.sum : Nat) : Int) > MAX_SAMPLES →
    spliceCum prev (ns.map fun n : Nat => (n : Int)) = none := by
  induction ns with
  | nil => intro prev h1 h2; simp at h2; omega
  | cons n rest ih =>
    intro prev h1 h2
    simp only [List.sum_cons] at h2
    simp only [List.map_cons, spliceCum]
    split
    · rfl
    · rw [show (prev : Int) + (n : Int) = ((prev + n : Nat) : Int) by omega, ih (prev + n) (by omega) (by omega)]
      rfl

theorem total_ok (ns : List Nat) : ∀ acc : Nat, ((acc + ns.sum : Nat) : Int) ≤ INT64_MAX →
    spliceTotal (ns.map fun n : Nat => (n : Int)) acc = .ok ((acc + ns.sum : Nat) : Int) := by
  induction ns with
  | nil => intro acc _; simp [spliceTotal]
  | cons n rest ih =>
    intro acc h
    simp only [List.sum_cons] at h
    simp only [List.map_cons, spliceTotal]
    rw [show (acc : Int) + (n : Int) = ((acc + n : Nat) : Int) by omega,
      i64_ok (by simp only [InI64, INT64_MIN]; omega)]
    simp only [Res.bind_ok]
    rw [ih (acc + n) (by omega)]
    simp only [List.sum_cons]
    congr 2; omega

/-! ### The theorems -/

/-- C34. Clips of one format and rate are joined: the output has the sum of the lengths and its signal is the inputs'
signals one after the other, in every channel. `x.2` is what the clip `x.1` carries. -/
theorem C34_audioSplice (x0 : AClip α × Nat × Signal α) (rest : List (AClip α × Nat × Signal α)) (dflt : Signal α)
    (hcar : ∀ x ∈ x0 :: rest, x.1.Carries x.2.1 x.2.2)
    (hsame : ∀ x ∈ rest, isSameAudioInfo x0.1.ai x.1.ai = true)
    (hmax : ((((x0 :: rest).map (·.2.1)).sum : Nat) : Int) ≤ MAX_SAMPLES) :
    ∃ out, audioSpliceCreate ((x0 :: rest).map (·.1)) = .ok out ∧
      out.Carries ((x0 :: rest).map (·.2.1)).sum (Spec.concat ((x0 :: rest).map (·.2)) dflt) ∧
      out.ai.format = x0.1.ai.format ∧ out.ai.sampleRate = x0.1.ai.sampleRate := by
  have h0 := hcar x0 (by simp)
  cases hrest : rest with
  | nil =>
    refine ⟨x0.1, rfl, ?_, rfl, rfl⟩
    simp only [List.map_cons, List.map_nil, List.sum_cons, List.sum_nil, Nat.add_zero]
    apply h0.congr
    intro c p hp
    simp [Spec.concat, hp]
  | cons x1 rest' =>
    rw [← hrest]
    have hns : ∀ l : List (AClip α × Nat × Signal α), (∀ x ∈ l, x.1.Carries x.2.1 x.2.2) →
        (l.map (·.1)).map (·.ai.numSamples) = (l.map (·.2.1)).map fun n : Nat => (n : Int) := by
      intro l hl
      rw [List.map_map, List.map_map]
      apply List.map_congr_left
      intro x hx
      exact (hl x hx).count
    have hT : (((x0 :: rest).map (·.2)).map (·.1)) = (x0 :: rest).map (·.2.1) := by rw [List.map_map]; rfl
    have hj : Joinable ((x0 :: rest).map (·.1)) ((x0 :: rest).map (·.2)) x0.1.ai.format := by
      refine ⟨by simp, ?_, ?_⟩
      · intro i c p h1 h2
        simp only [List.getElem?_map, Option.map_eq_some_iff] at h1 h2
        obtain ⟨a, ha, rfl⟩ := h1
        obtain ⟨b, hb, rfl⟩ := h2
        rw [ha] at hb; cases hb
        exact hcar a (List.mem_of_getElem? ha)
      · intro i c h1
        simp only [List.getElem?_map, Option.map_eq_some_iff] at h1
        obtain ⟨a, ha, rfl⟩ := h1
        have hm := List.mem_of_getElem? ha
        rcases List.mem_cons.1 hm with rfl | hm'
        · rfl
        · exact (numChannels_of_same h0.info (hcar a hm).info (hsame a hm')).symm
    generalize hTT : ((x0 :: rest).map (·.2.1)).sum = T at *
    have hTpos : 1 ≤ T := by
      have := h0.len_pos
      rw [← hTT]; simp; omega
    have hany : ((rest.map (·.1)).any fun c => !isSameAudioInfo x0.1.ai c.ai) = false := by
      rw [List.any_eq_false]
      intro c hc
      obtain ⟨x, hx, rfl⟩ := List.mem_map.1 hc
      simp [hsame x hx]
    have hmax' : (T : Int) ≤ 2147483647 * 3072 := hmax
    have htotal : spliceTotal (((x0 :: rest).map (·.1)).map (·.ai.numSamples)) 0 = .ok (T : Int) := by
      rw [hns _ hcar]
      have := total_ok ((x0 :: rest).map (·.2.1)) 0 (by rw [hTT]; simp only [INT64_MAX]; omega)
      rw [hTT, Nat.zero_add] at this
      exact this
    have hcum : spliceCum x0.1.ai.numSamples ((rest.map (·.1)).map (·.ai.numSamples)) =
        some (cums x0.2.1 (rest.map (·.2.1))) := by
      rw [h0.count, hns _ (fun x hx => hcar x (by simp [hx]))]
      apply cum_ok
      simp only [List.map_cons, List.sum_cons] at hTT
      rw [hTT]; exact hmax
    have hcums : x0.1.ai.numSamples :: cums x0.2.1 (rest.map (·.2.1)) = cums 0 ((x0 :: rest).map (·.2.1)) := by
      simp [cums, h0.count]
    have hcreate : audioSpliceCreate ((x0 :: rest).map (·.1)) =
        createAudioFilter (spliceFilter { x0.1.ai with numSamples := (T : Int) }
          (((x0 :: rest).map (·.1)).map (·.ai.numSamples)) (cums 0 ((x0 :: rest).map (·.2.1)))
          (((x0 :: rest).map (·.1)).map (·.ai.numFrames))) ((x0 :: rest).map (·.1)) := by
      have hr2 : rest.map (·.1) = x1.1 :: rest'.map (·.1) := by rw [hrest]; rfl
      rw [← hcums]
      have e : ∀ (c0 c1 : AClip α) (r : List (AClip α)), audioSpliceCreate (c0 :: c1 :: r) =
          if (c1 :: r).any (fun c => !isSameAudioInfo c0.ai c.ai) then .err "AudioSplice: format mismatch"
          else (spliceTotal ((c0 :: c1 :: r).map (·.ai.numSamples)) 0).bind fun total =>
            match spliceCum c0.ai.numSamples ((c1 :: r).map (·.ai.numSamples)) with
            | none => .err "AudioSplice: the resulting clip is too long"
            | some cum => createAudioFilter (spliceFilter { c0.ai with numSamples := total }
                ((c0 :: c1 :: r).map (·.ai.numSamples)) (c0.ai.numSamples :: cum)
                ((c0 :: c1 :: r).map (·.ai.numFrames))) (c0 :: c1 :: r) := fun _ _ _ => rfl
      rw [List.map_cons, hr2, e, ← hr2, ← List.map_cons (f := fun x : AClip α × Nat × Signal α => x.1), hany, htotal]
      simp only [Res.bind, hcum]
      simp
    rw [hcreate]
    have main := create_carries' (spliceFilter { x0.1.ai with numSamples := (T : Int) }
          (((x0 :: rest).map (·.1)).map (·.ai.numSamples)) (cums 0 ((x0 :: rest).map (·.2.1)))
          (((x0 :: rest).map (·.1)).map (·.ai.numFrames))) ((x0 :: rest).map (·.1)) T
        (Spec.concat ((x0 :: rest).map (·.2)) dflt) (valid_withSamples h0.info (by omega)) rfl hmax (by
      intro k hk
      have hlt := lt_of_lt_frameCount hk
      obtain ⟨i, n, hn, hle, hlt2, hfind⟩ := find_spec (k * 3072) ((x0 :: rest).map (·.2.1)) 0 0 (by omega) (by omega)
      rw [Nat.zero_add] at hfind hle hlt2
      have hfind' : spliceFind ((k : Int) * SAMPLES) 0 0 (cums 0 ((x0 :: rest).map (·.2.1))) = _ := hfind
      have hst : startOf ((x0 :: rest).map (·.2)) i = (((x0 :: rest).map (·.2.1)).take i).sum := by
        unfold startOf
        rw [← List.map_take, ← List.map_take, List.map_map]; rfl
      obtain ⟨p, hp, hpn⟩ : ∃ p, ((x0 :: rest).map (·.2))[i]? = some p ∧ p.1 = n := by
        rw [← hT] at hn
        rw [List.getElem?_map] at hn
        obtain ⟨p, a, b⟩ := Option.map_eq_some_iff.1 hn
        exact ⟨p, a, b⟩
      generalize hX : k * 3072 - (0 + (((x0 :: rest).map (·.2.1)).take i).sum) = X at *
      have hXq := Nat.div_add_mod X 3072
      have hXm := Nat.mod_lt X (y := 3072) (by decide)
      obtain ⟨D, hD⟩ : ∃ D, D = min 3072 (T - k * 3072) := ⟨_, rfl⟩
      have hDi : min SAMPLES ((T : Int) - (k : Int) * SAMPLES) = (D : Int) := by unfold SAMPLES; omega
      obtain ⟨reqs, h1, h2, h3⟩ := splice_loop _ _ x0.1.ai.format dflt hj T D k (by rw [hT, hTT]) hD D i (X / 3072) (X % 3072) 0 p
        (by omega) hp hXm (by omega) (by omega) (by omega)
      have e1 : ((X : Nat) : Int).tdiv SAMPLES = ((X / 3072 : Nat) : Int) := (Int.ofNat_tdiv X 3072).symm
      have e2 : ((X : Nat) : Int).tmod SAMPLES = ((X % 3072 : Nat) : Int) := (Int.ofNat_tmod X 3072).symm
      refine ⟨reqs, ?_, h2, ?_⟩
      · simp only [spliceFilter, hfind', e1, e2, hDi]
        exact h1
      · intro fetch hf
        obtain ⟨r, hr1, hr2⟩ := h3 fetch hf none rfl
        refine ⟨r, ?_, hr2⟩
        simp only [spliceFilter, hfind', e1, e2, hDi]
        exact hr1)
    obtain ⟨out, o1, o2, o3⟩ := main
    exact ⟨out, o1, o2, by rw [o3]; rfl, by rw [o3]; rfl⟩

/-- C34, rejection of clips that differ in format or rate. -/
theorem C34_audioSplice_reject_mismatch (c0 c1 : AClip α) (rest : List (AClip α))
    (h : ∃ c ∈ c1 :: rest, isSameAudioInfo c0.ai c.ai = false) :
    ∃ msg, audioSpliceCreate (c0 :: c1 :: rest) = .err msg := by
  obtain ⟨c, hc, hs⟩ := h
  unfold audioSpliceCreate
  simp only
  rw [if_pos]
  · exact ⟨_, rfl⟩
  · rw [List.any_eq_true]
    exact ⟨c, hc, by simp [hs]⟩

/-- C34, rejection of a join longer than a node may be (as long as the total fits 64 bits, which takes more than a
million clips to violate). -/
theorem C34_audioSplice_reject_long (x0 : AClip α × Nat × Signal α) (rest : List (AClip α × Nat × Signal α))
    (hcar : ∀ x ∈ x0 :: rest, x.1.Carries x.2.1 x.2.2)
    (hmax : ((((x0 :: rest).map (·.2.1)).sum : Nat) : Int) > MAX_SAMPLES)
    (hfit : ((((x0 :: rest).map (·.2.1)).sum : Nat) : Int) ≤ INT64_MAX) :
    ∃ msg, audioSpliceCreate ((x0 :: rest).map (·.1)) = .err msg := by
  have h0 := hcar x0 (by simp)
  cases rest with
  | nil => simp at hmax; have := h0.range; omega
  | cons x1 rest' =>
    have hns : ∀ l : List (AClip α × Nat × Signal α), (∀ x ∈ l, x.1.Carries x.2.1 x.2.2) →
        (l.map (·.1)).map (·.ai.numSamples) = (l.map (·.2.1)).map fun n : Nat => (n : Int) := by
      intro l hl
      rw [List.map_map, List.map_map]
      apply List.map_congr_left
      intro x hx
      exact (hl x hx).count
    have htotal := total_ok ((x0 :: x1 :: rest').map (·.2.1)) 0 (by rw [Nat.zero_add]; exact hfit)
    rw [← hns _ hcar] at htotal
    have hcum := cum_long ((x1 :: rest').map (·.2.1)) x0.2.1 h0.range (by
      simp only [List.map_cons, List.sum_cons] at hmax ⊢; exact hmax)
    rw [← hns _ (fun x hx => hcar x (by simp [hx])), ← h0.count] at hcum
    simp only [List.map_cons] at htotal hcum ⊢
    unfold audioSpliceCreate
    simp only
    split
    · exact ⟨_, rfl⟩
    · simp only [List.map_cons]
      rw [show ((0 : Nat) : Int) = 0 from rfl] at htotal
      rw [htotal]
      simp only [Res.bind_ok, hcum]
      exact ⟨_, rfl⟩


end VS.Audio
