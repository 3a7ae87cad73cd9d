import Verif.Wave.LemmasHeader

/-!
# C41: packed audio and wave files
-/

namespace VS.Wave
open VS VS.Audio

theorem output_ok {big : Bool} {ai : AudioInfo} {frames : List Frame} (hc : Clip ai) (hf : Frames ai frames) :
    outputFrames big ai.format frames (buffer ai.format) = .ok (frames.flatMap (frameOut big ai.format)) :=
  outputFrames_eq (Facts.of hc).1 frames _ (good_of hc hf) (by simp [buffer])

/-- Packing never leaves its buffers and the output holds every sample of every channel at its place, in little endian
order; for 17 to 24 bits the least significant byte of the 32-bit container is left out. -/
theorem C41_packed (big : Bool) (ai : AudioInfo) (frames : List Frame) (hc : Clip ai) (hf : Frames ai frames) :
    ∃ d, audioFile big .none ai frames = .ok (some d) ∧ Interleaved big ai frames d := by
  refine ⟨_, ?_, data_interleaved hc hf⟩
  show (outputFrames big ai.format frames (buffer ai.format) >>= fun d => Res.ok (some ([] ++ d))) = _
  rw [output_ok hc hf]
  rfl

/-- The file is refused exactly if it doesn't fit the format, or if a channel has no bit in the 32-bit mask. -/
theorem C41_wave (big : Bool) (ai : AudioInfo) (frames : List Frame) (hc : Clip ai) (hf : Frames ai frames) :
    (ai.format.channelLayout < 2 ^ 32 ∧ 68 + total ai ≤ 0xFFFFFFFE →
      ∃ t d, audioFile big .wave ai frames = .ok (some t) ∧ IsWave ai t d ∧ Interleaved big ai frames d) ∧
    (¬(ai.format.channelLayout < 2 ^ 32 ∧ 68 + total ai ≤ 0xFFFFFFFE) → audioFile big .wave ai frames = .ok none) := by
  have hd := data_interleaved (big := big) hc hf
  obtain ⟨h1, h2⟩ := wave_ok (big := big) hc _ hd.1
  unfold audioFile
  constructor
  · intro h
    obtain ⟨hd', he, hw⟩ := h1 h
    refine ⟨_, _, ?_, hw, hd⟩
    rw [he]
    show (outputFrames big ai.format frames (buffer ai.format) >>= fun d => Res.ok (some (hd' ++ d))) = _
    rw [output_ok hc hf, Res.bind_ok]
  · intro h
    rw [h2 h]

/-- The same for Wave64, which has no limit on the size. -/
theorem C41_wave64 (big : Bool) (ai : AudioInfo) (frames : List Frame) (hc : Clip ai) (hf : Frames ai frames) :
    (ai.format.channelLayout < 2 ^ 32 →
      ∃ t d, audioFile big .wave64 ai frames = .ok (some t) ∧ IsWave64 ai t d ∧ Interleaved big ai frames d) ∧
    (¬ai.format.channelLayout < 2 ^ 32 → audioFile big .wave64 ai frames = .ok none) := by
  have hd := data_interleaved (big := big) hc hf
  obtain ⟨h1, h2⟩ := wave64_ok (big := big) hc _ hd.1
  unfold audioFile
  constructor
  · intro h
    obtain ⟨hd', he, hw⟩ := h1 h
    refine ⟨_, _, ?_, hw, hd⟩
    rw [he]
    show (outputFrames big ai.format frames (buffer ai.format) >>= fun d => Res.ok (some (hd' ++ d))) = _
    rw [output_ok hc hf, Res.bind_ok]
  · intro h
    rw [h2 h]

/-- Nothing is lost but padding: the numbers read from the output are the samples without the bits below. -/
theorem C41_lossless (big : Bool) (ai : AudioInfo) (frames : List Frame) (hc : Clip ai) (d : List Nat)
    (hd : Interleaved big ai frames d) (n i c : Nat) (f : Frame) (m : List Nat) (hn : frames[n]? = some f) (hi : i < f.len)
    (hm : f.chans[c]? = some m) (hlt : ∀ b ∈ m, b < 256) (hsz : f.len * ai.format.bytesPerSample.toNat ≤ m.length) :
    leAt d (((n * 3072 + i) * ai.format.numChannels + c) * width ai.format) (width ai.format) =
      sample big ai.format.bytesPerSample.toNat m i / 256 ^ (ai.format.bytesPerSample.toNat - width ai.format) := by
  have hfa := (Facts.of hc).1
  have hw : width ai.format ≤ ai.format.bytesPerSample.toNat := by
    have := hfa.bytes; have := hfa.bits; unfold width; split <;> (try split) <;> omega
  have hroom : (i + 1) * ai.format.bytesPerSample.toNat ≤ m.length := Nat.le_trans (Nat.mul_le_mul_right _ hi) hsz
  have h1 : leAt d (((n * 3072 + i) * ai.format.numChannels + c) * width ai.format) (width ai.format) =
      ofLe (cellOut big ai.format.bytesPerSample.toNat (width ai.format) m i) := by
    rw [ofLe_sum, cellOut_length hroom hw]
    apply sumTo_congr
    intro x hx
    rw [hd.2 n i c x f m hn hi hm hx, cellOut_get hroom hlt hw hx]
  rw [h1, sample_eq hroom, cellOut]
  have hdrop : ∀ (k : Nat) (l : List Nat), (∀ b ∈ l, b < 256) → ofLe (l.drop k) = ofLe l / 256 ^ k := by
    intro k
    induction k with
    | zero => intro l _; simp
    | succ k ih =>
      intro l hl
      cases l with
      | nil => simp [ofLe]
      | cons b l =>
        have hb : b < 256 := hl b (by simp)
        rw [List.drop_succ_cons, ih l (fun x hx => hl x (by simp [hx])), ofLe, Nat.pow_succ, Nat.mul_comm (256 ^ k),
          ← Nat.div_div_eq_div_mul, show (b + 256 * ofLe l) / 256 = ofLe l by omega]
  exact hdrop _ _ (order_lt big _ (raw_lt hlt))

/-! ## Examples: stereo, 24 bits, 3073 samples in two frames -/

def ai24 : AudioInfo := ⟨⟨0, 24, 4, 2, 3⟩, 48000, 3073, 2⟩
def chan (n x : Nat) : List Nat := (List.range (4 * n)).map fun k => (k + x) % 256
def frames24 : List Frame := [⟨3072, [chan 3072 0, chan 3072 5]⟩, ⟨1, [[0, 1, 2, 3], [0, 5, 6, 7]]⟩]

theorem ai24_clip : Clip ai24 := ⟨by decide, by decide, by decide, by decide, by decide⟩

theorem chan_length (n x : Nat) : (chan n x).length = 4 * n := by simp [chan]
theorem chan_lt (n x : Nat) : ∀ b ∈ chan n x, b < 256 := by
  intro b hb
  simp only [chan, List.mem_map] at hb
  obtain ⟨k, _, rfl⟩ := hb
  omega

theorem frames24_ok : Frames ai24 frames24 where
  count := rfl
  len := by
    intro n f h
    match n, h with
    | 0, h => cases h; decide
    | 1, h => cases h; decide
    | n + 2, h => simp [frames24] at h
  chans := by
    intro f hf
    simp only [frames24, List.mem_cons, List.not_mem_nil, or_false] at hf
    rcases hf with rfl | rfl <;> rfl
  size := by
    intro f hf m hm
    simp only [frames24, List.mem_cons, List.not_mem_nil, or_false] at hf
    rcases hf with rfl | rfl
    · simp only [List.mem_cons, List.not_mem_nil, or_false] at hm
      rcases hm with h | h <;> rw [h] <;> exact ⟨by rw [chan_length]; exact Nat.le_of_eq rfl, chan_lt _ _⟩
    · simp only [List.mem_cons, List.not_mem_nil, or_false] at hm
      rcases hm with rfl | rfl <;> decide

example : ∃ t d, audioFile false .wave ai24 frames24 = .ok (some t) ∧ IsWave ai24 t d ∧ Interleaved false ai24 frames24 d :=
  (C41_wave false ai24 frames24 ai24_clip frames24_ok).1 (by decide)
example : ∃ t d, audioFile true .wave64 ai24 frames24 = .ok (some t) ∧ IsWave64 ai24 t d ∧ Interleaved true ai24 frames24 d :=
  (C41_wave64 true ai24 frames24 ai24_clip frames24_ok).1 (by decide)
/-- The last two samples of the example. -/
example : ∃ d, audioFile false .none ai24 frames24 = .ok (some d) ∧ d.length = 18438 ∧ d[18432]? = some 1 ∧ d[18437]? = some 7 := by
  obtain ⟨d, h1, h2, h3⟩ := C41_packed false ai24 frames24 ai24_clip frames24_ok
  exact ⟨d, h1, h2, h3 1 0 0 0 _ _ rfl (by decide) rfl (by decide), h3 1 0 1 2 _ _ rfl (by decide) rfl (by decide)⟩
/-- The little and big endian memory of the same samples gives the same bytes. -/
example : pack false ⟨0, 24, 4, 1, 4⟩ ⟨2, [[0, 1, 2, 3, 0, 5, 6, 7]]⟩ (List.replicate 6 9) = .ok [1, 2, 3, 5, 6, 7] := by decide
example : pack true ⟨0, 24, 4, 1, 4⟩ ⟨2, [[3, 2, 1, 0, 7, 6, 5, 0]]⟩ (List.replicate 6 9) = .ok [1, 2, 3, 5, 6, 7] := by decide
/-- A clip that is too large for a wave file: the core accepts it, the header is refused. -/
example : Clip ⟨⟨1, 32, 4, 8, 255⟩, 48000, 2 ^ 27, 43691⟩ ∧ header false .wave ⟨⟨1, 32, 4, 8, 255⟩, 48000, 2 ^ 27, 43691⟩ = none :=
  ⟨⟨by decide, by decide, by decide, by decide, by decide⟩, by decide⟩

/-! ## What doesn't hold -/

/-- The bytes for each second in the header are wrong for sample rates the core accepts: they are cut to 32 bits. -/
theorem C41_rate_refuted : ∃ ai : AudioInfo, Clip ai ∧ ∃ hd, header false .wave ai = some hd ∧
    (leAt hd 28 4 : Int) ≠ ai.sampleRate * ai.format.numChannels * width ai.format :=
  ⟨⟨⟨1, 32, 4, 2, 3⟩, 536870912, 1, 1⟩, ⟨by decide, by decide, by decide, by decide, by decide⟩, _, rfl, by decide⟩

/-- RIFF chunks have an even size: data of odd size must be followed by a padding byte that isn't part of the chunk's
size but of the size of the file.  The file ends without it. -/
theorem C41_padding_refuted : ∃ (ai : AudioInfo) (frames : List Frame) (t : List Nat), Clip ai ∧ Frames ai frames ∧
    audioFile false .wave ai frames = .ok (some t) ∧ leAt t 64 4 % 2 = 1 ∧ t.length = 68 + leAt t 64 4 := by
  have hc : Clip ⟨⟨0, 24, 4, 1, 4⟩, 48000, 1, 1⟩ := ⟨by decide, by decide, by decide, by decide, by decide⟩
  have hf : Frames ⟨⟨0, 24, 4, 1, 4⟩, 48000, 1, 1⟩ [⟨1, [[0, 1, 2, 3]]⟩] := by
    refine ⟨rfl, ?_, by decide, by decide⟩
    intro n f h
    match n, h with
    | 0, h => cases h; decide
    | n + 1, h => simp at h
  obtain ⟨t, d, h1, h2, h3⟩ := (C41_wave false _ _ hc hf).1 (by decide)
  have h4 : d.length = 3 := h3.1
  have h5 := h2.dataSize
  have h6 : (t.drop 68).length = d.length := by rw [h2.rest]
  rw [List.length_drop] at h6
  exact ⟨_, _, t, hc, hf, h1, by rw [h5, h4], by omega⟩

end VS.Wave
