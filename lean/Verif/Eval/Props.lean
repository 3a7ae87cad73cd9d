import Verif.Eval.Lemmas

/-!
# C94: FrameEval and ModifyFrame
-/

namespace VS.Eval
open VS VS.Format VS.Pix VS.Eval.Spec

/-- What holds after every step holds at the end. -/
theorem run_inv {vi : VInfo} {g : GetFrame} {I : Sys → Prop} {P : Out → Prop}
    (hstep : ∀ S e, I S → (∀ r ∈ replies [e], P r) → ∃ S', step vi g S e = .ok S' ∧ I S') :
    ∀ (l : List Event) (S : Sys), I S → (∀ r ∈ replies l, P r) → ∃ S', run vi g S l = .ok S' ∧ I S'
  | [], S, hi, _ => ⟨S, rfl, hi⟩
  | e :: t, S, hi, hp => by
    have h1 : ∀ r ∈ replies [e], P r := by
      intro r hr
      refine hp r ?_
      cases e <;> simp_all [replies]
    have h2 : ∀ r ∈ replies t, P r := by
      intro r hr
      refine hp r ?_
      cases e <;> simp_all [replies]
    obtain ⟨S', e1, hi'⟩ := hstep S e hi h1
    obtain ⟨S'', e2, hi''⟩ := run_inv hstep t S' hi' h2
    refine ⟨S'', ?_, hi''⟩
    unfold run
    rw [e1, Res.bind_ok, e2]

theorem afterCall_n (vi : VInfo) (r : Req) (slot : Option Nat) (call : Option In) (reply : Out) (a : Act) :
    (afterCall vi r slot call reply a).n = r.n := by
  unfold afterCall
  split <;> rfl

theorem set_n {l : List Req} {i : Nat} {r r' : Req} (h : l[i]? = some r) (hn : r'.n = r.n) :
    (l.set i r').map (·.n) = l.map (·.n) := by
  rw [List.map_set, hn]
  refine List.ext_getElem? fun j => ?_
  rw [List.getElem?_set]
  split
  · rename_i e
    subst e
    split
    · rw [List.getElem?_map, h]; rfl
    · rename_i hj
      rw [List.getElem?_eq_none (by omega)]
  · rfl

/-- The requests are those that were started, in this order. -/
theorem step_starts {vi : VInfo} {g : GetFrame} {S S' : Sys} {e : Event} (h : step vi g S e = .ok S') :
    S'.reqs.map (·.n) = S.reqs.map (·.n) ++ starts [e] := by
  cases e with
  | start n reply =>
    unfold step at h
    simp only at h
    cases hg : g n .initial none [] reply S.inst with
    | ok a =>
      rw [hg, Res.bind_ok] at h
      cases h
      simp only [List.map_append, List.map_cons, List.map_nil, afterCall_n, starts]
    | err m => rw [hg] at h; cases h
    | fatal => rw [hg] at h; cases h
    | ub => rw [hg] at h; cases h
  | ready i reply =>
    unfold step at h
    simp only at h
    rw [starts, starts, List.append_nil]
    cases hr : S.reqs[i]? with
    | none => rw [hr] at h; cases h; rfl
    | some r =>
      rw [hr] at h
      simp only at h
      split at h
      · cases h; rfl
      · cases hg : g r.n .ready r.slot (r.avail ++ r.waiting) reply S.inst with
        | ok a =>
          rw [hg, Res.bind_ok] at h
          cases h
          exact set_n hr (afterCall_n ..)
        | err m => rw [hg] at h; cases h
        | fatal => rw [hg] at h; cases h
        | ub => rw [hg] at h; cases h
  | fail i msg =>
    unfold step at h
    simp only at h
    rw [starts, starts, List.append_nil]
    cases hr : S.reqs[i]? with
    | none => rw [hr] at h; cases h; rfl
    | some r =>
      rw [hr] at h
      simp only at h
      split at h
      · cases h; rfl
      · cases hg : g r.n .error r.slot r.avail ⟨none, none⟩ S.inst with
        | ok a =>
          rw [hg, Res.bind_ok] at h
          cases h
          exact set_n hr rfl
        | err m => rw [hg] at h; cases h
        | fatal => rw [hg] at h; cases h
        | ub => rw [hg] at h; cases h

theorem run_starts {vi : VInfo} {g : GetFrame} : ∀ (l : List Event) (S S' : Sys), run vi g S l = .ok S' →
    S'.reqs.map (·.n) = S.reqs.map (·.n) ++ starts l
  | [], S, S', h => by
    unfold run at h
    cases h
    simp [starts]
  | e :: t, S, S', h => by
    unfold run at h
    cases hs : step vi g S e with
    | ok T =>
      rw [hs, Res.bind_ok] at h
      rw [run_starts t T S' h, step_starts hs]
      cases e <;> simp [starts]
    | err m => rw [hs] at h; cases h
    | fatal => rw [hs] at h; cases h
    | ub => rw [hs] at h; cases h

/-! ## FrameEval -/

/-- All requests are correct, and every node that is kept belongs to a request that waits. -/
structure EvalInv (w : World) (vi : VInfo) (props : List Nat) (S : Sys) : Prop where
  clean : Clean S.inst
  reqs : ∀ r ∈ S.reqs, EvalCorrect w vi props r
  refs : ∀ id, S.inst.nodeRefs id = S.reqs.countP (holds id)

theorem clean_add {s : Inst} (h : Clean s) (id : Nat) : Clean (addNode s id) := ⟨h.1, h.2, h.3⟩
theorem clean_drop {s : Inst} (h : Clean s) (id : Nat) : Clean (dropNode s id) := ⟨h.1, h.2, h.3⟩

theorem mem_set {l : List Req} {i : Nat} {r : Req} {P : Req → Prop} (h : ∀ r ∈ l, P r) (hr : P r) : ∀ q ∈ l.set i r, P q := by
  intro q hq
  rcases List.mem_or_eq_of_mem_set hq with hq | hq
  · exact h q hq
  · exact hq ▸ hr

theorem count_set {l : List Req} {i : Nat} {r r' : Req} (p : Req → Bool) (h : l[i]? = some r) :
    (l.set i r').countP p = l.countP p - (if p r then 1 else 0) + (if p r' then 1 else 0) := by
  obtain ⟨hi, e⟩ := List.getElem?_eq_some_iff.1 h
  rw [List.countP_set hi, e]

theorem count_pos {l : List Req} {i : Nat} {r : Req} {p : Req → Bool} (h : l[i]? = some r) (hp : p r = true) : 0 < l.countP p :=
  List.countP_pos_iff.2 ⟨r, List.mem_of_getElem? h, hp⟩

theorem reply_ok {reply : Out} {id : Nat} (h : replyNode reply = .ok id) : reply.error = none ∧ reply.val = some (.node id) := by
  unfold replyNode at h
  split at h
  · cases h
  · rename_i he
    split at h
    · rename_i hv
      cases h
      exact ⟨he, hv⟩
    · cases h

theorem reply_error {w : World} {vi : VInfo} {n : Nat} {reply : Out} {m : String} (h : replyNode reply = .error m) :
    EvalResult w vi n reply (.error m) := by
  unfold replyNode at h
  split at h
  · rename_i he
    cases h
    exact .error _ he
  · rename_i he
    split at h
    · cases h
    · rename_i hv
      exact .noClip _ he (fun id e => hv id e)

/-- The result of the second half. -/
theorem finish_result {w : World} {vi : VInfo} (hv : isValidVideoStruct vi.format = true) (hs : ∀ id k, Sound vi (w.frame id k))
    {n id : Nat} {reply : Out} (h1 : reply.error = none) (h2 : reply.val = some (.node id)) (r : Req) (slot : Option Nat) (reply' : Out) :
    ∃ res, EvalResult w vi n reply res ∧ afterCall vi r slot none reply'
      (if wrongSize vi (frameAt w n id) then .failed "FrameEval: Returned frame has wrong dimensions"
      else if wrongFormat vi (frameAt w n id) then .failed "FrameEval: Returned frame has wrong format"
      else .done (frameAt w n id)) = { r with slot, result := some res } := by
  have hc := checks_iff hv (hs id (min n (w.len id - 1)))
  change _ ↔ Fits vi (frameAt w n id) at hc
  change (wrongSize vi (frameAt w n id) = false ∧ wrongFormat vi (frameAt w n id) = false) ↔ _ at hc
  by_cases e1 : wrongSize vi (frameAt w n id) = true
  · refine ⟨.error "FrameEval: Returned frame has wrong dimensions", .wrong _ id h1 h2 (fun hf => ?_), by rw [if_pos e1]; simp [afterCall]⟩
    have := (hc.2 hf).1
    rw [e1] at this
    cases this
  · by_cases e2 : wrongFormat vi (frameAt w n id) = true
    · refine ⟨.error "FrameEval: Returned frame has wrong format", .wrong _ id h1 h2 (fun hf => ?_),
        by rw [if_neg e1, if_pos e2]; simp [afterCall]⟩
      have := (hc.2 hf).2
      rw [e2] at this
      cases this
    · have hf := hc.1 ⟨by simpa using e1, by simpa using e2⟩
      refine ⟨.frame (frameAt w n id), .frame id h1 h2 hf, ?_⟩
      rw [if_neg e1, if_neg e2]
      simp [afterCall, core_fits hf]

theorem countP_add {l : List Req} (p : Req → Bool) (r : Req) : (l ++ [r]).countP p = l.countP p + if p r then 1 else 0 := by
  rw [List.countP_append, List.countP_singleton]

/-- The call of the function for a request without a node: the function is called with the right arguments. -/
theorem args_eq {s : Inst} (hc : Clean s) (w : World) (props : List Nat) (n : Nat) :
    ({ s.inp with n := s.inp.n ++ [(n : Int)], f := s.inp.f ++ props.map (frameAt w n) } : In) = args w props n := by
  rw [hc.inp]
  rfl

/-- After a call of the function that returned no clip. -/
theorem after_error {w : World} {vi : VInfo} {props : List Nat} (r : Req) {reply : Out} {m : String} (hr : replyNode reply = .error m)
    (h3 : r.calls = []) (h4 : r.srcError = none) :
    EvalCorrect w vi props (afterCall vi r none (some (args w props r.n)) reply (.failed m)) ∧
      ∀ id, holds id (afterCall vi r none (some (args w props r.n)) reply (.failed m)) = false := by
  refine ⟨.ended reply (.error m) ?_ ?_ ?_ ?_, fun id => ?_⟩
  · simp [afterCall]
  · simpa [afterCall] using h4
  · simp [afterCall, h3]
  · exact reply_error hr
  · simp [afterCall, holds]

/-- After a call of the function that returned a clip. -/
theorem after_ok {w : World} (hw : ∀ id, 0 < w.len id) {vi : VInfo} {props : List Nat} (r : Req) {reply : Out} {i : Nat}
    (hr : replyNode reply = .ok i) (h1 : r.result = none) (h3 : r.calls = []) (h4 : r.srcError = none) :
    EvalCorrect w vi props (afterCall vi r (some i) (some (args w props r.n)) reply (.wait [requestKey w r.n i])) ∧
      ∀ id, holds id (afterCall vi r (some i) (some (args w props r.n)) reply (.wait [requestKey w r.n i])) = decide (id = i) := by
  obtain ⟨e1, e2⟩ := reply_ok hr
  refine ⟨.clip reply i ?_ ?_ ?_ ?_ e1 e2 ?_, fun id => ?_⟩
  · simpa [afterCall] using h1
  · simp [afterCall]
  · simp [afterCall, h3]
  · simpa [afterCall] using h4
  · simp [afterCall, requestKey_eq hw, key]
  · simp only [afterCall, holds, h1]
    by_cases e : id = i
    · simp [e]
    · simp [e, Ne.symm e]

/-- Every step of FrameEval. -/
theorem eval_step {w : World} (hw : ∀ id, 0 < w.len id) {vi : VInfo} (hv : isValidVideoStruct vi.format = true)
    (hs : ∀ id k, Sound vi (w.frame id k)) {props : List Nat} (S : Sys) (e : Event) (hi : EvalInv w vi props S) :
    ∃ S', step vi (evalFilter w vi props) S e = .ok S' ∧ EvalInv w vi props S' := by
  obtain ⟨hc, hreqs, hrefs⟩ := hi
  have hmem : ∀ {i : Nat} {r : Req}, S.reqs[i]? = some r → EvalCorrect w vi props r := fun h => hreqs _ (List.mem_of_getElem? h)
  cases e with
  | start n reply =>
    unfold step evalFilter
    simp only
    by_cases hp : props.length > 0
    · rw [if_pos hp]
      have hne : props ≠ [] := by intro h; rw [h] at hp; simp at hp
      have hm : props.map (requestKey w n) = props.map (key w n) := List.map_congr_left fun p _ => requestKey_eq hw n p
      unfold evalWithProps
      simp only [Res.bind_ok]
      refine ⟨_, rfl, hc, ?_, ?_⟩
      · intro q hq
        rcases List.mem_append.1 hq with hq | hq
        · exact hreqs q hq
        · rw [List.mem_singleton] at hq
          subst hq
          obtain ⟨p, t, rfl⟩ := List.exists_cons_of_ne_nil hne
          refine .sources ?_ ?_ ?_ ?_ hne ?_ <;> simp [afterCall, ← hm]
      · intro id
        obtain ⟨p, t, rfl⟩ := List.exists_cons_of_ne_nil hne
        rw [countP_add, hrefs id]
        simp [afterCall, holds]
    · rw [if_neg hp]
      have hne : props = [] := by
        cases props with
        | nil => rfl
        | cons _ _ => simp at hp
      subst hne
      unfold evalNoProps
      simp only
      have ha : ({ S.inst.inp with n := S.inst.inp.n ++ [(n : Int)] } : In) = args w [] n := by rw [hc.inp]; rfl
      rw [ha, call_eq hc]
      cases hr : replyNode reply with
      | error m =>
        simp only [Res.bind_ok]
        obtain ⟨q1, q2⟩ := after_error (w := w) (vi := vi) (props := []) ⟨n, none, [], [], none, [], none⟩ hr rfl rfl
        refine ⟨_, rfl, hc, ?_, ?_⟩
        · intro q hq
          rcases List.mem_append.1 hq with hq | hq
          · exact hreqs q hq
          · rw [List.mem_singleton] at hq
            subst hq
            exact q1
        · intro id
          have := q2 id
          simp only at this
          rw [countP_add, this, hrefs id]
          simp
      | ok j =>
        simp only [Res.bind_ok]
        obtain ⟨q1, q2⟩ := after_ok hw (vi := vi) (props := []) ⟨n, none, [], [], none, [], none⟩ hr rfl rfl rfl
        refine ⟨_, rfl, clean_add hc j, ?_, ?_⟩
        · intro q hq
          rcases List.mem_append.1 hq with hq | hq
          · exact hreqs q hq
          · rw [List.mem_singleton] at hq
            subst hq
            exact q1
        · intro id
          have := q2 id
          simp only at this
          rw [countP_add, this, ← hrefs id]
          by_cases e : id = j <;> simp [addNode, e]
  | ready i reply =>
    unfold step
    simp only
    cases hr : S.reqs[i]? with
    | none => exact ⟨S, rfl, hc, hreqs, hrefs⟩
    | some r =>
      simp only
      by_cases hd : r.result.isSome = true
      · rw [if_pos hd]
        exact ⟨S, rfl, hc, hreqs, hrefs⟩
      rw [if_neg hd]
      rcases hmem hr with ⟨h1, h2, h3, h4, h5, h6⟩ | ⟨rep, j, h1, h2, h3, h4, h5, h6, h7⟩ | ⟨m, h1, _⟩ | ⟨_, _, h1, _⟩
      · have hp : props.length > 0 := List.length_pos_iff.2 h5
        unfold evalFilter
        rw [if_pos hp]
        unfold evalWithProps
        simp only [h2]
        rw [collect_eq hw]
        · simp only [Res.bind_ok]
          have ha := args_eq hc w props r.n
          simp only at ha
          rw [ha, call_eq hc]
          have hh : ∀ id, holds id r = false := fun id => by simp [holds, h2]
          cases hq : replyNode reply with
          | error m =>
            simp only [Res.bind_ok]
            obtain ⟨q1, q2⟩ := after_error (w := w) (vi := vi) (props := props) { r with slot := none, avail := r.avail ++ r.waiting, waiting := [] } hq h3 h4
            refine ⟨_, rfl, hc, mem_set hreqs q1, fun id => ?_⟩
            have := q2 id
            simp only at this
            rw [count_set _ hr, this, hrefs id, hh]
            simp
          | ok j =>
            simp only [Res.bind_ok]
            obtain ⟨q1, q2⟩ := after_ok hw (vi := vi) (props := props) { r with slot := none, avail := r.avail ++ r.waiting, waiting := [] } hq h1 h3 h4
            refine ⟨_, rfl, clean_add hc j, mem_set hreqs q1, fun id => ?_⟩
            have := q2 id
            simp only at this
            rw [count_set _ hr, this, ← hrefs id, hh]
            by_cases e : id = j <;> simp [addNode, e]
        · intro p hp
          rw [h6]
          refine List.mem_append.2 (Or.inr (List.mem_map.2 ⟨p, hp, ?_⟩))
          rw [requestKey_eq hw]
          rfl
      · have hh : holds j r = true := by simp [holds, h1, h2]
        have hpos : 0 < S.inst.nodeRefs j := by rw [hrefs j]; exact count_pos hr hh
        have hk : requestKey w r.n j ∈ r.avail ++ r.waiting := by
          rw [requestKey_eq hw, h7]
          exact List.mem_append.2 (Or.inr (List.mem_singleton.2 rfl))
        have key : evalFilter w vi props r.n .ready r.slot (r.avail ++ r.waiting) reply S.inst = .ok (dropNode S.inst j, some j,
            (if wrongSize vi (frameAt w r.n j) then .failed "FrameEval: Returned frame has wrong dimensions"
              else if wrongFormat vi (frameAt w r.n j) then .failed "FrameEval: Returned frame has wrong format"
              else .done (frameAt w r.n j)), none) := by
          unfold evalFilter
          by_cases hp : props.length > 0
          · rw [if_pos hp]
            unfold evalWithProps
            simp only [h2]
            rw [finish_eq hw hc hk hpos, Res.bind_ok]
          · rw [if_neg hp]
            unfold evalNoProps
            simp only [h2]
            rw [finish_eq hw hc hk hpos, Res.bind_ok]
        rw [key, Res.bind_ok]
        obtain ⟨res, q1, q2⟩ := finish_result hv hs (n := r.n) h5 h6 { r with avail := r.avail ++ r.waiting, waiting := [] } (some j) reply
        simp only at q2 ⊢
        rw [q2]
        refine ⟨_, rfl, clean_drop hc j, mem_set hreqs ?_, ?_⟩
        · exact .ended rep res rfl h4 h3 q1
        · intro id
          rw [count_set _ hr]
          have : holds id ({ r with slot := some j, avail := r.avail ++ r.waiting, waiting := [], result := some res } : Req) = false := by simp [holds]
          simp only [dropNode, hrefs id] at this ⊢
          rw [this]
          by_cases e : id = j
          · subst e
            simp [hh]
          · have : holds id r = false := by simp [holds, h2, Ne.symm e]
            simp [e, this]
      · rw [h1] at hd; simp at hd
      · rw [h1] at hd; simp at hd
  | fail i msg =>
    unfold step
    simp only
    cases hr : S.reqs[i]? with
    | none => exact ⟨S, rfl, hc, hreqs, hrefs⟩
    | some r =>
      simp only
      by_cases hd : r.result.isSome = true
      · rw [if_pos hd]
        exact ⟨S, rfl, hc, hreqs, hrefs⟩
      rw [if_neg hd]
      have key : evalFilter w vi props r.n .error r.slot r.avail ⟨none, none⟩ S.inst =
          (freeNode S.inst r.slot >>= fun s => .ok (s, r.slot, .wait [], none)) := by
        unfold evalFilter
        by_cases hp : props.length > 0
        · rw [if_pos hp]
          unfold evalWithProps
          rfl
        · rw [if_neg hp]
          unfold evalNoProps
          rfl
      rw [key]
      rcases hmem hr with ⟨h1, h2, h3, h4, h5, h6⟩ | ⟨rep, j, h1, h2, h3, h4, h5, h6, h7⟩ | ⟨m, h1, _⟩ | ⟨_, _, h1, _⟩
      · rw [h2]
        simp only [freeNode, Res.bind_ok]
        refine ⟨_, rfl, hc, mem_set hreqs (.failed msg rfl rfl (Or.inl h3)), ?_⟩
        intro id
        have : holds id r = false := by simp [holds, h2]
        rw [count_set _ hr, this, hrefs id]
        simp [holds]
      · have hh : holds j r = true := by simp [holds, h1, h2]
        have hpos : 0 < S.inst.nodeRefs j := by rw [hrefs j]; exact count_pos hr hh
        rw [h2]
        simp only [freeNode]
        rw [if_neg (by omega), Res.bind_ok, Res.bind_ok]
        refine ⟨_, rfl, clean_drop hc j, mem_set hreqs (.failed msg rfl rfl (Or.inr ⟨rep, h3⟩)), ?_⟩
        intro id
        rw [count_set _ hr]
        simp only [hrefs id]
        by_cases e : id = j
        · subst e
          rw [hh]
          simp [holds]
        · have : holds id r = false := by simp [holds, h2, Ne.symm e]
          rw [this]
          simp [holds, e]
      · rw [h1] at hd; simp at hd
      · rw [h1] at hd; simp at hd

theorem eval_new (w : World) (vi : VInfo) (props : List Nat) : EvalInv w vi props ⟨Inst.new, []⟩ :=
  ⟨⟨rfl, rfl, rfl⟩, fun _ h => (nomatch h), fun _ => rfl⟩

/-- **C94, FrameEval.** In every history of requests, deliveries and failures, and whatever the function replies: nothing
undefined happens; the function is called at most once for each request, with the number of the frame and the frames of the
given clips and nothing else; the result is the frame of the clip that the function returned, if it fits the declared format and
size, otherwise an error; and exactly the nodes of requests that still wait are kept. -/
theorem C94_frameeval {w : World} (hw : ∀ id, 0 < w.len id) {vi : VInfo} (hv : isValidVideoStruct vi.format = true)
    (hs : ∀ id k, Sound vi (w.frame id k)) (props : List Nat) (l : List Event) :
    ∃ S, run vi (evalFilter w vi props) ⟨Inst.new, []⟩ l = .ok S ∧ S.reqs.map (·.n) = starts l ∧
      (∀ r ∈ S.reqs, EvalCorrect w vi props r) ∧ (∀ id, S.inst.nodeRefs id = S.reqs.countP (holds id)) ∧
      S.inst.frameRefs = 0 ∧ S.inst.inp = ⟨[], []⟩ ∧ S.inst.out = ⟨none, none⟩ := by
  obtain ⟨S, e, hi⟩ := run_inv (P := fun _ => True) (fun S e hi _ => eval_step hw hv hs (props := props) S e hi) l ⟨Inst.new, []⟩
    (eval_new w vi props) (fun _ _ => trivial)
  exact ⟨S, e, by simpa using run_starts l _ S e, hi.reqs, hi.refs, hi.clean.frames, hi.clean.inp, hi.clean.out⟩

/-- **C94, FrameEval.** When no request waits no node is kept. -/
theorem C94_released {w : World} (hw : ∀ id, 0 < w.len id) {vi : VInfo} (hv : isValidVideoStruct vi.format = true)
    (hs : ∀ id k, Sound vi (w.frame id k)) {props : List Nat} {l : List Event} {S : Sys}
    (h : run vi (evalFilter w vi props) ⟨Inst.new, []⟩ l = .ok S) (hd : ∀ r ∈ S.reqs, r.result ≠ none) (id : Nat) :
    S.inst.nodeRefs id = 0 := by
  obtain ⟨S', e, _, _, h2, _⟩ := C94_frameeval hw hv hs props l
  rw [h] at e
  cases e
  rw [h2 id, List.countP_eq_zero]
  intro r hr
  have := hd r hr
  cases hq : r.result with
  | none => exact absurd hq this
  | some x => simp [holds, hq]

/-- **C94, FrameEval.** A request whose frames are delivered ends with the second delivery at the latest. -/
theorem C94_ends {w : World} (hw : ∀ id, 0 < w.len id) {vi : VInfo} (hv : isValidVideoStruct vi.format = true)
    (hs : ∀ id k, Sound vi (w.frame id k)) {props : List Nat} {l : List Event} {S : Sys}
    (h : run vi (evalFilter w vi props) ⟨Inst.new, []⟩ l = .ok S) {i : Nat} {r : Req} (hr : S.reqs[i]? = some r) {id : Nat}
    (hslot : r.slot = some id) (reply : Out) : ∃ S' r', step vi (evalFilter w vi props) S (.ready i reply) = .ok S' ∧
      S'.reqs[i]? = some r' ∧ r'.result ≠ none := by
  obtain ⟨S0, e, hi⟩ := run_inv (P := fun _ => True) (fun S e hi _ => eval_step hw hv hs (props := props) S e hi) l ⟨Inst.new, []⟩
    (eval_new w vi props) (fun _ _ => trivial)
  rw [h] at e
  cases e
  obtain ⟨S', e, hi'⟩ := eval_step hw hv hs S (.ready i reply) hi
  have hlen : S'.reqs.length = S.reqs.length := by
    have := congrArg List.length (step_starts e)
    simpa [starts] using this
  obtain ⟨hlt, he⟩ := List.getElem?_eq_some_iff.1 hr
  have hlt' : i < S'.reqs.length := by omega
  refine ⟨S', S'.reqs[i], e, List.getElem?_eq_getElem hlt', ?_⟩
  by_cases hd : r.result.isSome = true
  · unfold step at e
    simp only [hr] at e
    rw [if_pos hd] at e
    cases e
    intro hn
    rw [he] at hn
    rw [hn] at hd
    simp at hd
  · unfold step at e
    simp only [hr] at e
    rw [if_neg hd] at e
    rcases hi.reqs r (List.mem_of_getElem? hr) with ⟨h1, h2, _⟩ | ⟨rep, j, h1, h2, h3, h4, h5, h6, h7⟩ | ⟨m, h1, _⟩ | ⟨_, _, h1, _⟩
    · rw [h2] at hslot; cases hslot
    · have hh : holds j r = true := by simp [holds, h1, h2]
      have hpos : 0 < S.inst.nodeRefs j := by rw [hi.refs j]; exact count_pos hr hh
      have hk : requestKey w r.n j ∈ r.avail ++ r.waiting := by
        rw [requestKey_eq hw, h7]
        exact List.mem_append.2 (Or.inr (List.mem_singleton.2 rfl))
      have key : evalFilter w vi props r.n .ready r.slot (r.avail ++ r.waiting) reply S.inst = .ok (dropNode S.inst j, some j,
          (if wrongSize vi (frameAt w r.n j) then .failed "FrameEval: Returned frame has wrong dimensions"
            else if wrongFormat vi (frameAt w r.n j) then .failed "FrameEval: Returned frame has wrong format"
            else .done (frameAt w r.n j)), none) := by
        unfold evalFilter
        by_cases hp : props.length > 0
        · rw [if_pos hp]
          unfold evalWithProps
          simp only [h2]
          rw [finish_eq hw hi.clean hk hpos, Res.bind_ok]
        · rw [if_neg hp]
          unfold evalNoProps
          simp only [h2]
          rw [finish_eq hw hi.clean hk hpos, Res.bind_ok]
      rw [key, Res.bind_ok] at e
      obtain ⟨res, q1, q2⟩ := finish_result hv hs (n := r.n) h5 h6 { r with avail := r.avail ++ r.waiting, waiting := [] } (some j) reply
      simp only at q2 e
      rw [q2] at e
      cases e
      simp
    · rw [h1] at hd; simp at hd
    · rw [h1] at hd; simp at hd

/-! ## ModifyFrame -/

/-- The invariant of ModifyFrame. -/
structure ModifyInv (w : World) (vi : VInfo) (clips : List Nat) (S : Sys) : Prop where
  clean : Clean S.inst
  reqs : ∀ r ∈ S.reqs, ModifyCorrect w vi clips r
  refs : ∀ id, S.inst.nodeRefs id = 0

theorem modify_result {vi : VInfo} (hv : isValidVideoStruct vi.format = true) {reply : Out}
    (hs : ∀ f, reply.val = some (.frame f) → Sound vi f) (r : Req) (slot : Option Nat) (a : In) :
    ∃ res, ModifyResult vi reply res ∧ afterCall vi r slot (some a) reply (replyFrame vi reply) =
      { r with slot, calls := r.calls ++ [(a, reply)], result := some res } := by
  unfold replyFrame
  cases he : reply.error with
  | some m => exact ⟨.error m, .error _ he, by simp [afterCall]⟩
  | none =>
    simp only
    cases hval : reply.val with
    | none => exact ⟨.error _, .noFrame "ModifyFrame: Returned value not a frame" he (by simp [hval]), by simp [afterCall]⟩
    | some v =>
      cases v with
      | node id => exact ⟨.error _, .noFrame "ModifyFrame: Returned value not a frame" he (by simp [hval]), by simp [afterCall]⟩
      | other => exact ⟨.error _, .noFrame "ModifyFrame: Returned value not a frame" he (by simp [hval]), by simp [afterCall]⟩
      | frame f =>
        have hc := checks_iff hv (hs f hval)
        simp only
        by_cases e2 : wrongFormat vi f = true
        · refine ⟨.error "ModifyFrame: Returned frame has the wrong format", .wrong _ f he hval (fun hf => ?_),
            by rw [if_pos e2]; simp [afterCall]⟩
          have := (hc.2 hf).2
          rw [e2] at this
          cases this
        · by_cases e1 : wrongSize vi f = true
          · refine ⟨.error "ModifyFrame: Returned frame has the wrong dimensions", .wrong _ f he hval (fun hf => ?_),
              by rw [if_neg e2, if_pos e1]; simp [afterCall]⟩
            have := (hc.2 hf).1
            rw [e1] at this
            cases this
          · have hf := hc.1 ⟨by simpa using e1, by simpa using e2⟩
            refine ⟨.frame f, .frame f he hval hf, ?_⟩
            rw [if_neg e2, if_neg e1]
            simp [afterCall, core_fits hf]

/-- Every step of ModifyFrame. -/
theorem modify_step {w : World} (hw : ∀ id, 0 < w.len id) {vi : VInfo} (hv : isValidVideoStruct vi.format = true) {clips : List Nat}
    (hne : clips ≠ []) (S : Sys) (e : Event) (hi : ModifyInv w vi clips S)
    (hs : ∀ reply ∈ replies [e], ∀ f, reply.val = some (.frame f) → Sound vi f) :
    ∃ S', step vi (modifyFilter w vi clips) S e = .ok S' ∧ ModifyInv w vi clips S' := by
  obtain ⟨hc, hreqs, hrefs⟩ := hi
  cases e with
  | start n reply =>
    unfold step modifyFilter
    simp only [Res.bind_ok]
    refine ⟨_, rfl, hc, ?_, hrefs⟩
    intro q hq
    rcases List.mem_append.1 hq with hq | hq
    · exact hreqs q hq
    · rw [List.mem_singleton] at hq
      subst hq
      have hm : clips.map (requestKey w n) = clips.map (key w n) := List.map_congr_left fun p _ => requestKey_eq hw n p
      obtain ⟨p, t, rfl⟩ := List.exists_cons_of_ne_nil hne
      refine .sources ?_ ?_ ?_ ?_ <;> simp [afterCall, ← hm]
  | ready i reply =>
    unfold step
    simp only
    cases hr : S.reqs[i]? with
    | none => exact ⟨S, rfl, hc, hreqs, hrefs⟩
    | some r =>
      simp only
      by_cases hd : r.result.isSome = true
      · rw [if_pos hd]
        exact ⟨S, rfl, hc, hreqs, hrefs⟩
      rw [if_neg hd]
      rcases hreqs r (List.mem_of_getElem? hr) with ⟨h1, h2, h3, h4⟩ | ⟨m, h1, _⟩ | ⟨_, _, h1, _⟩
      · unfold modifyFilter
        simp only
        rw [collect_eq hw]
        · simp only [Res.bind_ok]
          have ha := args_eq hc w clips r.n
          simp only at ha
          rw [ha, modify_eq hc, Res.bind_ok, Res.bind_ok]
          obtain ⟨res, q1, q2⟩ := modify_result hv (hs reply (by simp [replies]))
            { r with avail := r.avail ++ r.waiting, waiting := [] } r.slot (args w clips r.n)
          simp only at q2 ⊢
          rw [q2]
          refine ⟨_, rfl, hc, mem_set hreqs (.ended reply res rfl h3 ?_ q1), hrefs⟩
          simp [h2]
        · intro p hp
          rw [h4]
          refine List.mem_append.2 (Or.inr (List.mem_map.2 ⟨p, hp, ?_⟩))
          rw [requestKey_eq hw]
          rfl
      · rw [h1] at hd; simp at hd
      · rw [h1] at hd; simp at hd
  | fail i msg =>
    unfold step
    simp only
    cases hr : S.reqs[i]? with
    | none => exact ⟨S, rfl, hc, hreqs, hrefs⟩
    | some r =>
      simp only
      by_cases hd : r.result.isSome = true
      · rw [if_pos hd]
        exact ⟨S, rfl, hc, hreqs, hrefs⟩
      rw [if_neg hd]
      rcases hreqs r (List.mem_of_getElem? hr) with ⟨h1, h2, h3, h4⟩ | ⟨m, h1, _⟩ | ⟨_, _, h1, _⟩
      · unfold modifyFilter
        simp only [Res.bind_ok]
        exact ⟨_, rfl, hc, mem_set hreqs (.failed msg rfl rfl h2), hrefs⟩
      · rw [h1] at hd; simp at hd
      · rw [h1] at hd; simp at hd

/-- **C94, ModifyFrame.** In every history: the function is called once for each request whose source frames could be made,
with the number and the frames; the result is the frame it returned, if it fits, otherwise an error; no reference is left. -/
theorem C94_modifyframe {w : World} (hw : ∀ id, 0 < w.len id) {vi : VInfo} (hv : isValidVideoStruct vi.format = true) {clips : List Nat}
    (hne : clips ≠ []) (l : List Event) (hs : ∀ reply ∈ replies l, ∀ f, reply.val = some (.frame f) → Sound vi f) :
    ∃ S, run vi (modifyFilter w vi clips) ⟨Inst.new, []⟩ l = .ok S ∧ S.reqs.map (·.n) = starts l ∧
      (∀ r ∈ S.reqs, ModifyCorrect w vi clips r) ∧ (∀ id, S.inst.nodeRefs id = 0) ∧
      S.inst.frameRefs = 0 ∧ S.inst.inp = ⟨[], []⟩ ∧ S.inst.out = ⟨none, none⟩ := by
  obtain ⟨S, e, hi⟩ := run_inv (P := fun reply => ∀ f, reply.val = some (.frame f) → Sound vi f)
    (fun S e hi h => modify_step hw hv hne S e hi h) l ⟨Inst.new, []⟩ ⟨⟨rfl, rfl, rfl⟩, fun _ h => (nomatch h), fun _ => rfl⟩ hs
  exact ⟨S, e, by simpa using run_starts l _ S e, hi.reqs, hi.refs, hi.clean.frames, hi.clean.inp, hi.clean.out⟩

/-! ## Examples -/

/-- 8 bit YUV 4:2:0. -/
def exFmt : VFmt := ⟨cfYUV, stInteger, 8, 1, 1, 1, 3⟩

/-- Nodes of three frames: video, and audio as node 9. -/
def exWorld : World := ⟨fun _ => 3, fun id n => if id = 9 then .audio ⟨stInteger, 16, 2, 2, 3⟩ 3072 0 n else .video exFmt 8 8 (10 * id + n)⟩

/-- A declared clip of the same format. -/
def exInfo : VInfo := ⟨exFmt, 24, 1, 8, 8, 100⟩

/-- The hypotheses hold, also with an audio node. -/
theorem ex_hyp : (∀ id, 0 < exWorld.len id) ∧ isValidVideoStruct exInfo.format = true ∧ ∀ id k, Sound exInfo (exWorld.frame id k) := by
  refine ⟨fun _ => Nat.zero_lt_succ 2, by decide, fun id k => ?_⟩
  unfold exWorld
  by_cases h : id = 9
  · simp only [h, if_true]
    exact ⟨by decide, by decide⟩
  · simp only [h, if_false]
    trivial

/-- Two requests at the same time, with node 2 as source: for the first one the function returns node 4, for the second one audio. The
length of the nodes is 3, so that frame 7 is their last frame. -/
example : (run exInfo (evalFilter exWorld exInfo [2]) ⟨Inst.new, []⟩
      [.start 1 ⟨none, none⟩, .start 7 ⟨none, none⟩, .ready 1 ⟨none, some (.node 9)⟩, .ready 0 ⟨none, some (.node 4)⟩,
        .ready 0 ⟨none, none⟩, .ready 1 ⟨none, none⟩] >>= fun S => .ok (S.reqs.map (·.result), S.reqs.map (·.calls))) =
    .ok ([some (.frame (.video exFmt 8 8 41)), some (.error "FrameEval: Returned frame has wrong dimensions")],
      [[(⟨[1], [.video exFmt 8 8 21]⟩, ⟨none, some (.node 4)⟩)], [(⟨[7], [.video exFmt 8 8 22]⟩, ⟨none, some (.node 9)⟩)]]) := by
  decide +kernel

/-- **C94 refuted for clips of variable format and size.** If the function returns an audio clip, neither filter notices; the core
ends the process. -/
theorem C94_audio_refuted : ∃ vi : VInfo, isValidVideoInfo vi = .ok true ∧
    (run vi (evalFilter exWorld vi []) ⟨Inst.new, []⟩ [.start 0 ⟨none, some (.node 9)⟩, .ready 0 ⟨none, none⟩] >>= fun S =>
      .ok (S.reqs.map (·.result))) = .ok [some .fatal] ∧
    (run vi (modifyFilter exWorld vi [1]) ⟨Inst.new, []⟩ [.start 0 ⟨none, none⟩, .ready 0 ⟨none, some (.frame (exWorld.frame 9 0))⟩] >>= fun S =>
      .ok (S.reqs.map (·.result))) = .ok [some .fatal] :=
  ⟨⟨VFmt.zero, 24, 1, 0, 0, 100⟩, by decide +kernel, by decide +kernel, by decide +kernel⟩

end VS.Eval
