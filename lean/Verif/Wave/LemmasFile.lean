import Verif.Wave.Lemmas

/-!
# Helper lemmas: frames and headers
-/

namespace VS.Wave
open VS VS.Audio

theorem popcount_le (m : Nat) : popcount m ≤ 64 := by
  have := List.countP_le_length (p := m.testBit) (l := List.range 64)
  simpa [popcount] using this

/-- What is known about the format of a clip. -/
structure Facts (f : AudioFormat) : Prop where
  bits : 16 ≤ f.bitsPerSample ∧ f.bitsPerSample ≤ 32
  chans : f.numChannels = popcount f.channelLayout
  bytes : (f.bitsPerSample = 16 ∧ f.bytesPerSample = 2) ∨ (16 < f.bitsPerSample ∧ f.bytesPerSample = 4)
  out : outBytes f.bitsPerSample = width f

theorem Facts.of {ai : AudioInfo} (h : Clip ai) : Facts ai.format ∧ 1 ≤ ai.numSamples ∧ 1 ≤ ai.sampleRate := by
  have hv := h.valid
  simp only [isValidAudioInfo, isValidAudioFormat, isValidFormatArgs] at hv
  generalize ai.format = f at *
  have hb : 16 ≤ f.bitsPerSample ∧ f.bitsPerSample ≤ 32 := by grind
  have hc : f.numChannels = popcount f.channelLayout := by grind
  have hy : (f.bitsPerSample = 16 ∧ f.bytesPerSample = 2) ∨ (16 < f.bitsPerSample ∧ f.bytesPerSample = 4) := by grind
  refine ⟨⟨hb, hc, hy, ?_⟩, by grind, by grind⟩
  unfold outBytes width
  rw [Int.tdiv_eq_ediv_of_nonneg (by omega)]
  split
  · omega
  · split <;> omega

/-- The bytes written for a frame. -/
def frameOut (big : Bool) (f : AudioFormat) (fr : Frame) : List Nat :=
  rows (cellOut big f.bytesPerSample.toNat (width f)) fr.chans 0 fr.len

structure Good (f : AudioFormat) (fr : Frame) : Prop where
  len : fr.len ≤ 3072
  chans : fr.chans.length = f.numChannels
  size : ∀ m ∈ fr.chans, fr.len * f.bytesPerSample.toNat ≤ m.length ∧ ∀ b ∈ m, b < 256

theorem Good.room {f : AudioFormat} {fr : Frame} (g : Good f fr) {m : List Nat} (hm : m ∈ fr.chans) {i : Nat} (hi : i < fr.len) :
    (i + 1) * f.bytesPerSample.toNat ≤ m.length :=
  Nat.le_trans (Nat.mul_le_mul_right _ hi) (g.size m hm).1

theorem frameOut_length {big : Bool} {f : AudioFormat} {fr : Frame} (hf : Facts f) (g : Good f fr) :
    (frameOut big f fr).length = fr.len * (f.numChannels * width f) := by
  have hw : width f ≤ f.bytesPerSample.toNat := by
    have := hf.bytes; have := hf.bits; unfold width; split <;> (try split) <;> omega
  unfold frameOut rows
  rw [flatMap_length _ (f.numChannels * width f), List.length_range']
  intro i hi
  have hi' : i < fr.len := by
    simp only [List.mem_range'_1] at hi; omega
  rw [flatMap_length _ (width f), g.chans]
  intro m hm
  exact cellOut_length (g.room hm hi') hw

theorem outputAudio_eq {big : Bool} {f : AudioFormat} {fr : Frame} (hf : Facts f) (g : Good f fr) (buf : List Nat)
    (hb : buf.length = f.numChannels * 3072 * f.bytesPerSample.toNat) :
    ∃ buf', outputAudio big f fr buf = .ok (buf', frameOut big f fr) ∧ buf'.length = buf.length := by
  have hw : width f ≤ f.bytesPerSample.toNat := by
    have := hf.bytes; have := hf.bits; unfold width; split <;> (try split) <;> omega
  have hroom : fr.len * (fr.chans.length * width f) ≤ buf.length := by
    rw [hb, g.chans, ← Nat.mul_assoc, Nat.mul_comm fr.len]
    exact Nat.mul_le_mul (Nat.mul_le_mul_left _ g.len) hw
  have key : ∀ cell : List Nat → Nat → Res (List Nat),
      (∀ m ∈ fr.chans, ∀ i < fr.len, cell m i = .ok (cellOut big f.bytesPerSample.toNat (width f) m i)) →
      packLoop cell (width f) f.numChannels fr.chans 0 0 fr.len buf =
        .ok (frameOut big f fr ++ buf.drop (fr.len * (fr.chans.length * width f))) := by
    intro cell hcell
    have h := packLoop_eq cell (width f) fr.chans (cellOut big f.bytesPerSample.toNat (width f)) fr.len
      (fun m hm i hi => ⟨hcell m hm i hi, cellOut_length (g.room hm hi) hw⟩) fr.len 0 [] buf (by omega) (by simp) hroom
    rw [List.length_nil, List.nil_append, List.nil_append, g.chans] at h
    rw [h, g.chans]
    rfl
  have hlen := frameOut_length (big := big) hf g
  have hpack : pack big f fr buf = .ok (frameOut big f fr ++ buf.drop (fr.len * (fr.chans.length * width f))) := by
    unfold pack
    simp only []
    rw [hf.out]
    have hby := hf.bytes
    have hbi := hf.bits
    by_cases h16 : f.bitsPerSample ≤ 16
    · have ew : width f = 2 := by unfold width; rw [if_pos h16]
      have eb : f.bytesPerSample.toNat = 2 := by omega
      rw [if_pos ew, ← key (sameCell big 2) ?_, ew]
      · rfl
      · intro m hm i hi
        rw [ew, eb]
        have := g.room hm hi
        rw [eb] at this
        exact sameCell_eq this (g.size m hm).2
    · have eb : f.bytesPerSample.toNat = 4 := by omega
      by_cases h24 : f.bitsPerSample ≤ 24
      · have ew : width f = 3 := by unfold width; rw [if_neg h16, if_pos h24]
        rw [if_neg (by omega), if_pos ew, ← key (cell24 big) ?_, ew]
        · rfl
        · intro m hm i hi
          rw [ew, eb]
          have := g.room hm hi
          rw [eb] at this
          exact cell24_eq this
      · have ew : width f = 4 := by unfold width; rw [if_neg h16, if_neg h24]
        rw [if_neg (by omega), if_neg (by omega), if_pos ew, ← key (sameCell big 4) ?_, ew]
        · rfl
        · intro m hm i hi
          rw [ew, eb]
          have := g.room hm hi
          rw [eb] at this
          exact sameCell_eq this (g.size m hm).2
  refine ⟨frameOut big f fr ++ buf.drop (fr.len * (fr.chans.length * width f)), ?_, ?_⟩
  · unfold outputAudio
    rw [hpack, Res.bind_ok]
    have hl : outBytes f.bitsPerSample * fr.len * f.numChannels = (frameOut big f fr).length := by
      rw [hlen, hf.out]; ac_rfl
    unfold load
    rw [hl, if_pos (by rw [List.length_append]; omega), Res.bind_ok, List.drop_zero, List.take_left]
  · rw [List.length_append, List.length_drop, hlen, g.chans]
    rw [g.chans] at hroom
    omega

theorem outputFrames_eq {big : Bool} {f : AudioFormat} (hf : Facts f) : ∀ (frames : List Frame) (buf : List Nat),
    (∀ fr ∈ frames, Good f fr) → buf.length = f.numChannels * 3072 * f.bytesPerSample.toNat →
    outputFrames big f frames buf = .ok (frames.flatMap (frameOut big f))
  | [], buf, _, _ => by simp [outputFrames]
  | fr :: t, buf, hg, hb => by
    obtain ⟨buf', h1, h2⟩ := outputAudio_eq (big := big) hf (hg fr (by simp)) buf hb
    have ih := outputFrames_eq (big := big) hf t buf' (fun x hx => hg x (by simp [hx])) (by rw [h2, hb])
    show (outputAudio big f fr buf >>= fun p => outputFrames big f t p.1 >>= fun r => Res.ok (p.2 ++ r)) = _
    rw [h1, Res.bind_ok, ih, Res.bind_ok, List.flatMap_cons]

theorem good_of {ai : AudioInfo} {frames : List Frame} (hc : Clip ai) (hf : Frames ai frames) :
    ∀ fr ∈ frames, Good ai.format fr := by
  intro fr hm
  refine ⟨?_, hf.chans fr hm, hf.size fr hm⟩
  obtain ⟨n, hn⟩ := List.getElem?_of_mem hm
  have h := hf.len n fr hn
  have h1 := (Facts.of hc).2.1
  unfold expectedSamples SAMPLES at h
  rw [Int.tmod_eq_emod_of_nonneg (by omega)] at h
  split at h
  · omega
  · split at h <;> omega

/-- Lengths of the frames: all but the last have 3072 samples, together they are the clip. -/
theorem lens {ai : AudioInfo} {frames : List Frame} (hc : Clip ai) (hf : Frames ai frames) :
    ∃ (init : List Frame) (last : Frame), frames = init ++ [last] ∧ (∀ f ∈ init, f.len = 3072) ∧
      init.length * 3072 + last.len = ai.numSamples.toNat := by
  have h1 := (Facts.of hc).2.1
  have hn := hc.frames
  unfold SAMPLES at hn
  rw [Int.tdiv_eq_ediv_of_nonneg (by omega)] at hn
  have hcount := hf.count
  have hne : frames ≠ [] := by
    intro h
    rw [h] at hcount
    simp only [List.length_nil] at hcount
    omega
  have hs := List.dropLast_concat_getLast hne
  have hlen : frames.dropLast.length + 1 = frames.length := by
    rw [List.length_dropLast]
    have : 0 < frames.length := by
      cases frames with
      | nil => exact absurd rfl hne
      | cons => simp
    omega
  refine ⟨frames.dropLast, frames.getLast hne, hs.symm, ?_, ?_⟩
  · intro f hm
    obtain ⟨n, hn'⟩ := List.getElem?_of_mem hm
    have hlt : n < frames.dropLast.length := by
      rw [List.getElem?_eq_some_iff] at hn'
      exact hn'.1
    have hg : frames[n]? = some f := by
      rw [← hs, List.getElem?_append_left hlt, hn']
    have h := hf.len n f hg
    unfold expectedSamples SAMPLES at h
    rw [if_pos (by omega)] at h
    omega
  · have hg : frames[frames.dropLast.length]? = some (frames.getLast hne) := by
      conv => lhs; rw [← hs]
      rw [List.getElem?_append_right (by simp)]
      simp
    have h := hf.len _ _ hg
    unfold expectedSamples SAMPLES at h
    rw [if_neg (by omega), Int.tmod_eq_emod_of_nonneg (by omega)] at h
    split at h <;> omega

theorem data_interleaved {big : Bool} {ai : AudioInfo} {frames : List Frame} (hc : Clip ai) (hf : Frames ai frames) :
    Interleaved big ai frames (frames.flatMap (frameOut big ai.format)) := by
  have hfa := (Facts.of hc).1
  have hgood := good_of hc hf
  have hw : width ai.format ≤ ai.format.bytesPerSample.toNat := by
    have := hfa.bytes; have := hfa.bits; unfold width; split <;> (try split) <;> omega
  obtain ⟨init, last, he, hin, hsum⟩ := lens hc hf
  constructor
  · rw [he, List.flatMap_append, List.length_append,
      flatMap_length (frameOut big ai.format) (3072 * (ai.format.numChannels * width ai.format)) init
        (fun f hm => by rw [frameOut_length hfa (hgood f (by rw [he]; simp [hm])), hin f hm])]
    simp only [List.flatMap_cons, List.flatMap_nil, List.append_nil]
    rw [frameOut_length hfa (hgood last (by rw [he]; simp)), ← Nat.mul_assoc, ← Nat.add_mul, hsum, total, Nat.mul_assoc]
  · intro n i c b f m hn hi hm hb
    have hfm : f ∈ frames := List.mem_of_getElem? hn
    have hmm : m ∈ f.chans := List.mem_of_getElem? hm
    have g := hgood f hfm
    have hcc : c < ai.format.numChannels := by
      rw [← g.chans]
      rw [List.getElem?_eq_some_iff] at hm
      exact hm.1
    generalize hC : ai.format.numChannels = C at *
    generalize hW : width ai.format = W at *
    have hlen := frameOut_length (big := big) hfa g
    rw [hC, hW] at hlen
    have hcb : c * W + b < C * W := by
      have : (c + 1) * W ≤ C * W := Nat.mul_le_mul_right _ hcc
      rw [Nat.add_mul, Nat.one_mul] at this
      omega
    have hicb : i * (C * W) + (c * W + b) < f.len * (C * W) := by
      have : (i + 1) * (C * W) ≤ f.len * (C * W) := Nat.mul_le_mul_right _ hi
      rw [Nat.add_mul, Nat.one_mul] at this
      omega
    have hidx : ((n * 3072 + i) * C + c) * W + b = n * (3072 * (C * W)) + (i * (C * W) + (c * W + b)) := by
      simp only [Nat.add_mul, Nat.mul_assoc, Nat.add_assoc]
    rw [hidx, flatMap_get (frameOut big ai.format) (3072 * (C * W)) frames n _ f hn ?_ (by rw [hlen]; exact hicb)]
    · unfold frameOut rows
      rw [flatMap_get _ (C * W) (List.range' 0 f.len) i (c * W + b) i ?_ ?_ ?_]
      · rw [flatMap_get _ W f.chans c b m hm ?_ ?_, hW]
        · exact cellOut_get (g.room hmm hi) (g.size m hmm).2 hw hb
        · intro k' y hk' hy
          rw [hW]
          exact cellOut_length (g.room (List.mem_of_getElem? hy) hi) hw
        · rw [hW, cellOut_length (g.room hmm hi) hw]
          exact hb
      · rw [List.getElem?_range' hi]
        simp
      · intro k' y hk' hy
        have hy' : y = k' := by
          rw [List.getElem?_range' (by omega)] at hy
          simp at hy
          omega
        subst hy'
        rw [flatMap_length _ W, g.chans, hC]
        intro m' hm'
        rw [hW]
        exact cellOut_length (g.room hm' (by omega)) hw
      · rw [flatMap_length _ W, g.chans, hC]
        · exact hcb
        · intro m' hm'
          rw [hW]
          exact cellOut_length (g.room hm' hi) hw
    · intro k' y hk' hy
      have hk : k' < init.length := by
        rw [he, List.getElem?_eq_some_iff] at hn
        have := hn.1
        rw [List.length_append, List.length_singleton] at this
        omega
      have hyi : y ∈ init := by
        rw [he, List.getElem?_append_left hk] at hy
        exact List.mem_of_getElem? hy
      rw [frameOut_length hfa (hgood y (List.mem_of_getElem? hy)), hin y hyi, hC, hW]

end VS.Wave
