import Verif.Audio.Model

/-!
# What an audio node delivers: a signal cut into frames of 3072 samples

A signal gives the sample of each channel at each position.  Everything the audio filters are claimed to do is stated
as an operation on signals.
-/

namespace VS.Audio

variable {α : Type}

/-- A multi-channel signal: channel index, sample position. -/
abbrev Signal (α : Type) := Nat → Nat → α

/-- Number of frames of a clip with `N` samples. -/
def frameCount (N : Nat) : Nat := (N + 3071) / 3072

/-- `f` is the `k`-th frame of a clip with `N` samples of the given format that carries `sig`. -/
structure IsFrame (fmt : AudioFormat) (N : Nat) (sig : Signal α) (k : Nat) (f : AFrame α) : Prop where
  format : f.format = fmt
  len : f.len = (min 3072 (N - k * 3072) : Nat)
  samples : ∀ c, c < fmt.numChannels → ∀ i, i < min 3072 (N - k * 3072) → f.ch c i = some (sig c (k * 3072 + i))

/-- The node is a legal audio node with `N` samples, and requesting any of its frames succeeds and gives the
corresponding part of `sig`. -/
structure AClip.Carries (c : AClip α) (N : Nat) (sig : Signal α) : Prop where
  info : isValidAudioInfo c.ai = true
  count : c.ai.numSamples = N
  range : (N : Int) ≤ MAX_SAMPLES
  frames : c.ai.numFrames = frameCount N
  content : ∀ k, k < frameCount N → ∃ f, c.frame k = .ok f ∧ IsFrame c.ai.format N sig k f

/-- The node that simply holds a signal. -/
def AClip.ofSignal (fmt : AudioFormat) (rate : Int) (N : Nat) (sig : Signal α) : AClip α where
  ai := ⟨fmt, rate, N, frameCount N⟩
  frame k := .ok ⟨fmt, (min 3072 (N - k * 3072) : Nat), fun c i => some (sig c (k * 3072 + i))⟩

/-- Every legal description with every signal is carried by some node. -/
theorem AClip.ofSignal_carries {fmt : AudioFormat} {rate : Int} {N : Nat} (sig : Signal α)
    (h : isValidAudioInfo ⟨fmt, rate, N, frameCount N⟩ = true) (hr : (N : Int) ≤ MAX_SAMPLES) :
    (AClip.ofSignal fmt rate N sig).Carries N sig :=
  ⟨h, rfl, hr, rfl, fun _ _ => ⟨_, rfl, rfl, rfl, fun _ _ _ _ => rfl⟩⟩

namespace Spec

/-- AudioTrim: which argument combinations are in range for `n` samples. -/
structure TrimLegal (n : Int) (first last length : Option Int) : Prop where
  first_ge : 0 ≤ first.getD 0
  first_lt : first.getD 0 < n
  not_both : ¬ (last.isSome ∧ length.isSome)
  last_ok : ∀ l, last = some l → first.getD 0 ≤ l ∧ l < n
  length_ok : ∀ k, length = some k → 1 ≤ k ∧ first.getD 0 + k ≤ n

/-- AudioTrim: number of samples asked for. -/
def trimCount (n : Int) (first last length : Option Int) : Int :=
  match last, length with
  | some l, _ => l + 1 - first.getD 0
  | none, some k => k
  | none, none => n - first.getD 0

/-- Dropping the first `first` samples. -/
def shifted (first : Nat) (sig : Signal α) : Signal α := fun c p => sig c (first + p)

/-- The signal played backwards. -/
def reversed (N : Nat) (sig : Signal α) : Signal α := fun c p => sig c (N - 1 - p)

/-- Signals of given lengths one after the other. -/
def concat : List (Nat × Signal α) → Signal α → Signal α
  | [], dflt => dflt
  | (n, s) :: rest, dflt => fun c p => if p < n then s c p else concat rest dflt c (p - n)

/-- The first `N` samples over and over. -/
def looped (N : Nat) (sig : Signal α) : Signal α := fun c p => sig c (p % N)

/-- The first `N` samples followed by silence. -/
def padded [Zero α] (N : Nat) (s : Nat → α) : Nat → α := fun p => if p < N then s p else 0

end Spec

end VS.Audio
