import Verif.Pipe.Model
import Verif.Base.Sum

/-!
# Invariant of vspipe's output loop
-/

namespace VS.Pipe

/-- All writes for the frames below `n`. -/
def Cfg.upTo (c : Cfg) (n : Nat) : List Item := (List.range n).flatMap (c.items c.total)

/-- The frames below `n`, of the node and of the alpha node. -/
def Cfg.keys (c : Cfg) (n : Nat) : List Key :=
  (List.range n).flatMap (fun i => [(i, false)] ++ (if c.alpha then [(i, true)] else []))

/-- Frame `n` has arrived, with its alpha if there is one. -/
def Complete (c : Cfg) (arr : List Key) (n : Nat) : Prop := (n, false) ∈ arr ∧ (c.alpha = true → (n, true) ∈ arr)

instance (c : Cfg) (arr : List Key) (n : Nat) : Decidable (Complete c arr n) := by
  unfold Complete; infer_instance

/-- Which of the initial requests the main thread has sent. -/
def Phase.sentTo : Phase → Nat → Bool → Prop
  | .issue k half, n, a => n < k ∨ (n = k ∧ a = false ∧ half = true)
  | _, _, _ => True

structure Core (c : Cfg) (s : State) : Prop where
  reqNodup : s.requests.Nodup
  reqMem : ∀ n a, (n, a) ∈ s.requests ↔
    (a = true → c.alpha = true) ∧ n < s.requested ∧ (c.initial ≤ n ∨ s.main.sentTo n a)
  sentNodup : s.sent.Nodup
  callsNodup : s.calls.Nodup
  split : ∀ k, k ∈ s.requests ↔ k ∈ s.sent ∨ k ∈ s.calls
  apart : ∀ k ∈ s.sent, k ∉ s.calls
  phase : ∀ k half, s.main = .issue k half → k ≤ c.initial ∧ (half = true → k < c.initial ∧ c.alpha = true)
  cnt : s.completed = s.calls.countP (fun k => !k.2)
  cntAlpha : s.completedAlpha = if c.alpha then s.calls.countP (fun k => k.2) else s.completed
  arrNodup : s.arrived.Nodup
  arrSub : ∀ k ∈ s.arrived, k ∈ s.calls
  act : ∀ k ok, s.active = some (k, ok) → k ∈ s.calls ∧ k ∉ s.arrived
  okAll : s.err = false → ∀ k ∈ s.calls, k ∈ s.arrived ∨ s.active = some (k, true) ∨ s.active = some (k, false)
  got1 : ∀ n, (s.got n).1 = true ↔ (n, false) ∈ s.arrived ∧ s.out ≤ n
  got2 : ∀ n, (s.got n).2 = true ↔ (n, true) ∈ s.arrived ∧ s.out ≤ n
  done : ∀ n < s.out, Complete c s.arrived n
  freed : s.main ≠ .finished → s.freed = c.keys s.out
  wr : s.written <+: c.upTo c.total
  wrOk : s.err = false → s.written = c.upTo s.out
  tot : s.total = if s.err then s.requested else c.total
  le : s.requested ≤ c.total
  init : c.initial ≤ s.requested

/-- The frames below `n` that have arrived. -/
def num (c : Cfg) (arr : List Key) (n : Nat) : Nat := sumTo (fun i => if Complete c arr i then 1 else 0) n

theorem Core.arr_alpha {c : Cfg} {s : State} (hi : Core c s) {n : Nat} (h : (n, true) ∈ s.arrived) :
    c.alpha = true := ((hi.reqMem n true).1 ((hi.split _).2 (Or.inr (hi.arrSub _ h)))).1 rfl

theorem Core.arr_lt {c : Cfg} {s : State} (hi : Core c s) {n : Nat} {a : Bool} (h : (n, a) ∈ s.arrived) :
    n < s.requested := ((hi.reqMem n a).1 ((hi.split _).2 (Or.inr (hi.arrSub _ h)))).2.1

theorem Core.isCompleted_iff {c : Cfg} {s : State} (hi : Core c s) (n : Nat) :
    isCompleted c.alpha (s.got n) = true ↔ Complete c s.arrived n ∧ s.out ≤ n := by
  unfold isCompleted Complete
  rw [Bool.and_eq_true, hi.got1 n, Bool.or_eq_true, hi.got2 n, Bool.not_eq_true']
  constructor
  · rintro ⟨⟨h1, h2⟩, h3⟩
    refine ⟨⟨h1, fun ha => ?_⟩, h2⟩
    rcases h3 with h3 | h3
    · rw [h3] at ha; cases ha
    · exact h3.1
  · rintro ⟨⟨h1, h2⟩, h3⟩
    refine ⟨⟨h1, h3⟩, ?_⟩
    cases ha : c.alpha with
    | false => exact Or.inl rfl
    | true => exact Or.inr ⟨h2 ha, h3⟩

theorem upTo_succ (c : Cfg) (n : Nat) : c.upTo (n + 1) = c.upTo n ++ c.items c.total n := by
  unfold Cfg.upTo
  rw [List.range_succ, List.flatMap_append]
  simp

theorem upTo_prefix (c : Cfg) {m n : Nat} (h : m ≤ n) : c.upTo m <+: c.upTo n := by
  induction n with
  | zero =>
    have : m = 0 := by omega
    subst this
    exact List.prefix_refl _
  | succ n ih =>
    by_cases e : m = n + 1
    · subst e; exact List.prefix_refl _
    · rw [upTo_succ]
      exact (ih (by omega)).trans (List.prefix_append _ _)

theorem keys_succ (c : Cfg) (n : Nat) :
    c.keys (n + 1) = c.keys n ++ ([(n, false)] ++ (if c.alpha then [(n, true)] else [])) := by
  unfold Cfg.keys
  rw [List.range_succ, List.flatMap_append]
  simp

theorem writeAll_prefix (w : Item → Outcome) : ∀ l, (writeAll w l).1 <+: l
  | [] => List.prefix_refl _
  | i :: t => by
    unfold writeAll
    split
    · exact (List.cons_prefix_cons).2 ⟨rfl, writeAll_prefix w t⟩
    · exact List.nil_prefix
    · exact (List.cons_prefix_cons).2 ⟨rfl, List.nil_prefix⟩

theorem writeAll_ok (w : Item → Outcome) : ∀ l, (writeAll w l).2 = false → (writeAll w l).1 = l
  | [], _ => rfl
  | i :: t, h => by
    unfold writeAll at h ⊢
    split at h
    · simp only; rw [writeAll_ok w t h]
    · cases h
    · cases h

/-- Writing a frame that is complete. -/
theorem output_core {c : Cfg} {s : State} (hi : Core c s) (hc : Complete c s.arrived s.out) :
    Core c (s.output c) ∧ (s.output c).requested = s.requested ∧ (s.output c).arrived = s.arrived ∧
    (s.output c).out = s.out + 1 ∧ (s.output c).main = s.main ∧ (s.output c).active = s.active ∧
    (s.output c).sent = s.sent ∧ ((s.output c).err = false → s.err = false) := by
  have hlt : s.out < s.requested := hi.arr_lt hc.1
  have hfreed : ∀ f : List Key, f = c.keys s.out →
      f ++ ([(s.out, false)] ++ (if (s.got s.out).2 then [(s.out, true)] else [])) = c.keys (s.out + 1) := by
    intro f hf
    rw [hf, keys_succ]
    congr 2
    cases ha : c.alpha with
    | true =>
      have := (hi.got2 s.out).2 ⟨hc.2 ha, Nat.le_refl _⟩
      rw [this]
    | false =>
      cases hg : (s.got s.out).2 with
      | false => rfl
      | true =>
        have := hi.arr_alpha ((hi.got2 s.out).1 hg).1
        rw [ha] at this
        cases this
  have hg1 : ∀ n, (setGot s.got s.out (false, false) n).1 = true ↔ (n, false) ∈ s.arrived ∧ s.out + 1 ≤ n := by
    intro n
    unfold setGot
    by_cases e : n = s.out
    · subst e
      rw [if_pos rfl]
      constructor
      · intro h; cases h
      · intro h; omega
    · rw [if_neg e, hi.got1]
      exact ⟨fun h => ⟨h.1, by omega⟩, fun h => ⟨h.1, by omega⟩⟩
  have hg2 : ∀ n, (setGot s.got s.out (false, false) n).2 = true ↔ (n, true) ∈ s.arrived ∧ s.out + 1 ≤ n := by
    intro n
    unfold setGot
    by_cases e : n = s.out
    · subst e
      rw [if_pos rfl]
      constructor
      · intro h; cases h
      · intro h; omega
    · rw [if_neg e, hi.got2]
      exact ⟨fun h => ⟨h.1, by omega⟩, fun h => ⟨h.1, by omega⟩⟩
  have hdone : ∀ n < s.out + 1, Complete c s.arrived n := by
    intro n hn
    by_cases e : n = s.out
    · subst e; exact hc
    · exact hi.done n (by omega)
  have htot := hi.tot
  cases he : s.err with
  | true =>
    rw [he] at htot
    have e1 : s.output c = { s with
        got := setGot s.got s.out (false, false)
        freed := s.freed ++ ([(s.out, false)] ++ (if (s.got s.out).2 then [(s.out, true)] else []))
        out := s.out + 1 } := by
      unfold State.output
      simp only [he, if_true]
    rw [e1]
    refine ⟨⟨hi.reqNodup, hi.reqMem, hi.sentNodup, hi.callsNodup, hi.split, hi.apart, hi.phase, hi.cnt, hi.cntAlpha,
      hi.arrNodup, hi.arrSub, hi.act, hi.okAll, hg1, hg2, hdone, fun hm => hfreed _ (hi.freed hm), hi.wr, ?_,
      hi.tot, hi.le, hi.init⟩, rfl, rfl, rfl, rfl, rfl, rfl, ?_⟩
    · intro h
      have h' : s.err = false := h
      rw [he] at h'
      cases h'
    · intro h
      have h' : s.err = false := h
      rw [he] at h'
      cases h'
  | false =>
    rw [he] at htot
    simp only [Bool.false_eq_true, if_false] at htot
    have hw := hi.wrOk he
    have hpre := writeAll_prefix c.write (c.items c.total s.out)
    have hbig : c.upTo (s.out + 1) <+: c.upTo c.total := upTo_prefix c (by have := hi.le; omega)
    cases hr : (writeAll c.write (c.items s.total s.out)).2 with
    | true =>
      have e1 : s.output c = { s with
          written := s.written ++ (writeAll c.write (c.items s.total s.out)).1
          err := true
          total := s.requested
          got := setGot s.got s.out (false, false)
          freed := s.freed ++ ([(s.out, false)] ++ (if (s.got s.out).2 then [(s.out, true)] else []))
          out := s.out + 1 } := by
        unfold State.output
        simp only [he, hr, if_true, Bool.false_eq_true, if_false]
      rw [e1]
      refine ⟨⟨hi.reqNodup, hi.reqMem, hi.sentNodup, hi.callsNodup, hi.split, hi.apart, hi.phase, hi.cnt, hi.cntAlpha,
        hi.arrNodup, hi.arrSub, hi.act, (fun h => nomatch h), hg1, hg2, hdone, fun hm => hfreed _ (hi.freed hm), ?_,
        (fun h => nomatch h), rfl, hi.le, hi.init⟩, rfl, rfl, rfl, rfl, rfl, rfl, (fun h => nomatch h)⟩
      show s.written ++ _ <+: _
      rw [htot, hw]
      refine List.IsPrefix.trans ?_ hbig
      rw [upTo_succ]
      exact (List.prefix_append_right_inj _).2 hpre
    | false =>
      have e1 : s.output c = { s with
          written := s.written ++ (writeAll c.write (c.items s.total s.out)).1
          got := setGot s.got s.out (false, false)
          freed := s.freed ++ ([(s.out, false)] ++ (if (s.got s.out).2 then [(s.out, true)] else []))
          out := s.out + 1 } := by
        unfold State.output
        simp only [he, hr, Bool.false_eq_true, if_false]
      rw [e1]
      have hall : s.written ++ (writeAll c.write (c.items s.total s.out)).1 = c.upTo (s.out + 1) := by
        rw [writeAll_ok _ _ hr, hw, htot, upTo_succ]
      refine ⟨⟨hi.reqNodup, hi.reqMem, hi.sentNodup, hi.callsNodup, hi.split, hi.apart, hi.phase, hi.cnt, hi.cntAlpha,
        hi.arrNodup, hi.arrSub, hi.act, hi.okAll, hg1, hg2, hdone, fun hm => hfreed _ (hi.freed hm), ?_,
        fun _ => hall, hi.tot, hi.le, hi.init⟩, rfl, rfl, rfl, rfl, rfl, rfl, fun h => h.symm ▸ rfl⟩
      show s.written ++ _ <+: _
      rw [hall]
      exact hbig

/-- The loop stops in front of the first frame that is not complete. -/
theorem drain_core {c : Cfg} : ∀ (fuel : Nat) {s : State}, Core c s → s.requested ≤ s.out + fuel →
    Core c (s.drain c fuel) ∧ (s.drain c fuel).requested = s.requested ∧ (s.drain c fuel).arrived = s.arrived ∧
    (s.drain c fuel).main = s.main ∧ (s.drain c fuel).active = s.active ∧ (s.drain c fuel).sent = s.sent ∧
    ((s.drain c fuel).err = false → s.err = false) ∧ ¬Complete c s.arrived (s.drain c fuel).out
  | 0, s, hi, hf => by
    refine ⟨hi, rfl, rfl, rfl, rfl, rfl, fun h => h, ?_⟩
    intro hc
    have := hi.arr_lt hc.1
    have e : (s.drain c 0).out = s.out := rfl
    omega
  | fuel + 1, s, hi, hf => by
    unfold State.drain
    by_cases hc : isCompleted c.alpha (s.got s.out) = true
    · rw [if_pos hc]
      have hcomp := ((hi.isCompleted_iff s.out).1 hc).1
      obtain ⟨h1, h2, h3, h4, h5, h6, h7, h8⟩ := output_core hi hcomp
      obtain ⟨g1, g2, g3, g4, g5, g6, g7, g8⟩ := drain_core fuel h1 (by omega)
      refine ⟨g1, by omega, g3.trans h3, g4.trans h5, g5.trans h6, g6.trans h7, fun h => h8 (g7 h), ?_⟩
      rw [h3] at g8
      exact g8
    · rw [if_neg hc]
      refine ⟨hi, rfl, rfl, rfl, rfl, rfl, fun h => h, ?_⟩
      intro hcomp
      exact hc ((hi.isCompleted_iff s.out).2 ⟨hcomp, Nat.le_refl _⟩)

end VS.Pipe
