import Verif.Eval.Model

/-!
# What FrameEval and ModifyFrame shall do
-/

namespace VS.Eval.Spec
open VS VS.Format VS.Pix VS.Eval

/-- Frame `n` of a node, or its last frame. -/
def frameAt (w : World) (n id : Nat) : Fr := w.frame id (min n (w.len id - 1))

/-- A video frame with the format and the size, where they are known. -/
def Fits (vi : VInfo) : Fr → Prop
  | .video fmt w h _ =>
    (vi.format.colorFamily ≠ cfUndefined → fmt.colorFamily = vi.format.colorFamily ∧ fmt.sampleType = vi.format.sampleType ∧
      fmt.bitsPerSample = vi.format.bitsPerSample ∧ fmt.subSamplingW = vi.format.subSamplingW ∧
      fmt.subSamplingH = vi.format.subSamplingH) ∧
    (vi.width ≠ 0 ∨ vi.height ≠ 0 → w = vi.width ∧ h = vi.height)
  | .audio .. => False

/-- The arguments of the function: the number and the frames, nothing else. -/
def args (w : World) (props : List Nat) (n : Nat) : In := ⟨[(n : Int)], props.map (frameAt w n)⟩

/-- The result of FrameEval from the reply of the function. -/
inductive EvalResult (w : World) (vi : VInfo) (n : Nat) (reply : Out) : Result → Prop
  | error (m) : reply.error = some m → EvalResult w vi n reply (.error m)
  | noClip (m) : reply.error = none → (∀ id, reply.val ≠ some (.node id)) → EvalResult w vi n reply (.error m)
  | wrong (m id) : reply.error = none → reply.val = some (.node id) → ¬Fits vi (frameAt w n id) → EvalResult w vi n reply (.error m)
  | frame (id) : reply.error = none → reply.val = some (.node id) → Fits vi (frameAt w n id) →
      EvalResult w vi n reply (.frame (frameAt w n id))

/-- The result of ModifyFrame from the reply of the function. -/
inductive ModifyResult (vi : VInfo) (reply : Out) : Result → Prop
  | error (m) : reply.error = some m → ModifyResult vi reply (.error m)
  | noFrame (m) : reply.error = none → (∀ f, reply.val ≠ some (.frame f)) → ModifyResult vi reply (.error m)
  | wrong (m f) : reply.error = none → reply.val = some (.frame f) → ¬Fits vi f → ModifyResult vi reply (.error m)
  | frame (f) : reply.error = none → reply.val = some (.frame f) → Fits vi f → ModifyResult vi reply (.frame f)

/-- No audio while the format of the result is not known. -/
def Sound (vi : VInfo) (f : Fr) : Prop :=
  match f with
  | .video .. => True
  | .audio fmt .. => vi.format.colorFamily ≠ cfUndefined ∧ isValidAudioStruct fmt = true

/-- The replies of a history. -/
def replies : List Event → List Out
  | [] => []
  | .start _ r :: t => r :: replies t
  | .ready _ r :: t => r :: replies t
  | .fail _ _ :: t => replies t

/-- The numbers of the requests of a history. -/
def starts : List Event → List Nat
  | [] => []
  | .start n _ :: t => n :: starts t
  | .ready _ _ :: t => starts t
  | .fail _ _ :: t => starts t

/-- The frame of a node that a request for frame `n` needs. -/
def key (w : World) (n id : Nat) : Key := (id, min n (w.len id - 1))

/-- A request of FrameEval at any time. The function is called at most once, with the arguments of this request. -/
inductive EvalCorrect (w : World) (vi : VInfo) (props : List Nat) (r : Req) : Prop
  /-- waits for the frames that are given to the function -/
  | sources : r.result = none → r.slot = none → r.calls = [] → r.srcError = none → props ≠ [] → r.waiting = props.map (key w r.n) →
      EvalCorrect w vi props r
  /-- waits for the frame of the clip that the function returned -/
  | clip (reply id) : r.result = none → r.slot = some id → r.calls = [(args w props r.n, reply)] → r.srcError = none →
      reply.error = none → reply.val = some (.node id) → r.waiting = [key w r.n id] → EvalCorrect w vi props r
  /-- one of these frames could not be made -/
  | failed (m) : r.result = some (.error m) → r.srcError = some m →
      (r.calls = [] ∨ ∃ reply, r.calls = [(args w props r.n, reply)]) → EvalCorrect w vi props r
  /-- has ended -/
  | ended (reply res) : r.result = some res → r.srcError = none → r.calls = [(args w props r.n, reply)] →
      EvalResult w vi r.n reply res → EvalCorrect w vi props r

/-- A request of ModifyFrame at any time. -/
inductive ModifyCorrect (w : World) (vi : VInfo) (clips : List Nat) (r : Req) : Prop
  | sources : r.result = none → r.calls = [] → r.srcError = none → r.waiting = clips.map (key w r.n) → ModifyCorrect w vi clips r
  | failed (m) : r.result = some (.error m) → r.srcError = some m → r.calls = [] → ModifyCorrect w vi clips r
  | ended (reply res) : r.result = some res → r.srcError = none → r.calls = [(args w clips r.n, reply)] →
      ModifyResult vi reply res → ModifyCorrect w vi clips r

/-- The request keeps a reference to the node `id`. -/
def holds (id : Nat) (r : Req) : Bool := r.result.isNone && decide (r.slot = some id)

end VS.Eval.Spec
