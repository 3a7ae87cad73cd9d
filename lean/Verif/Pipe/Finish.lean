import Verif.Pipe.Step
import Verif.Pipe.Spec

/-!
# What has been written, requested and freed at the end
-/

namespace VS.Pipe

theorem mem_items {c : Cfg} {n : Nat} (hn : n < c.total) (i : Item) :
    i ∈ c.items c.total n ↔ c.Wanted i ∧ i.frame = n := by
  unfold Cfg.items
  simp only [List.mem_append]
  cases i with
  | header m =>
    simp only [Cfg.Wanted, Item.frame]
    cases c.outFile <;> cases c.y4m <;> cases c.alpha <;> cases c.timecodes <;> cases c.jsonFile <;> simp <;> omega
  | plane m p =>
    simp only [Cfg.Wanted, Item.frame]
    cases c.outFile <;> cases c.y4m <;> cases c.alpha <;> cases c.timecodes <;> cases c.jsonFile <;> simp <;> omega
  | alphaPlane m p =>
    simp only [Cfg.Wanted, Item.frame]
    cases c.outFile <;> cases c.y4m <;> cases c.alpha <;> cases c.timecodes <;> cases c.jsonFile <;> simp <;> omega
  | timecode m =>
    simp only [Cfg.Wanted, Item.frame]
    cases c.outFile <;> cases c.y4m <;> cases c.alpha <;> cases c.timecodes <;> cases c.jsonFile <;> simp <;> omega
  | json m b =>
    simp only [Cfg.Wanted, Item.frame]
    have : (n + 1 ≠ c.total) ↔ (c.total - 1 ≠ n) := by omega
    cases b <;> cases c.outFile <;> cases c.y4m <;> cases c.alpha <;> cases c.timecodes <;> cases c.jsonFile <;>
      simp <;> omega

theorem mem_upTo {c : Cfg} {k : Nat} (hk : k ≤ c.total) (i : Item) :
    i ∈ c.upTo k ↔ c.Wanted i ∧ i.frame < k := by
  unfold Cfg.upTo
  rw [List.mem_flatMap]
  constructor
  · rintro ⟨n, hn, hi⟩
    have hn := List.mem_range.1 hn
    have := (mem_items (by omega) i).1 hi
    exact ⟨this.1, by omega⟩
  · rintro ⟨h1, h2⟩
    exact ⟨i.frame, List.mem_range.2 h2, (mem_items (by omega) i).2 ⟨h1, rfl⟩⟩

theorem Item.Before.irrefl (i : Item) : ¬i.Before i := by
  unfold Item.Before
  omega

theorem Item.Before.asymm {i j : Item} (h : i.Before j) : ¬j.Before i := by
  unfold Item.Before at *
  omega

theorem items_pairwise (c : Cfg) (t n : Nat) : (c.items t n).Pairwise Item.Before := by
  have hr : ∀ (m : Nat) (f : Nat → Item), (∀ p q, p < q → (f p).Before (f q)) → ((List.range m).map f).Pairwise Item.Before := by
    intro m f hf
    exact List.Pairwise.map f hf List.pairwise_lt_range
  have h1 := hr c.planes (Item.plane n) (fun p q h => Or.inr ⟨rfl, Or.inr ⟨rfl, h⟩⟩)
  have h2 := hr c.alphaPlanes (Item.alphaPlane n) (fun p q h => Or.inr ⟨rfl, Or.inr ⟨rfl, h⟩⟩)
  unfold Cfg.items
  cases c.outFile <;> cases c.y4m <;> cases c.alpha <;> cases c.timecodes <;> cases c.jsonFile <;>
    simp [List.pairwise_append, h1, h2, Item.Before, Item.frame, Item.stage] <;> grind [Item.Before, Item.frame, Item.stage]

theorem upTo_pairwise (c : Cfg) (k : Nat) (hk : k ≤ c.total) : (c.upTo k).Pairwise Item.Before := by
  induction k with
  | zero => exact List.Pairwise.nil
  | succ k ih =>
    rw [upTo_succ]
    refine List.pairwise_append.2 ⟨ih (by omega), items_pairwise c _ _, ?_⟩
    intro i hi j hj
    have h1 := ((mem_upTo (by omega) i).1 hi).2
    have h2 := ((mem_items (by omega) j).1 hj).2
    exact Or.inl (by omega)

/-- A prefix of a list sorted by `Before` has, with each element, all earlier ones. -/
theorem prefix_closed {l t : List Item} (hp : l <+: t) (hs : t.Pairwise Item.Before) {i j : Item} (hi : i ∈ l)
    (hj : j ∈ t) (hb : j.Before i) : j ∈ l := by
  obtain ⟨r, e⟩ := hp
  subst e
  rcases List.mem_append.1 hj with h | h
  · exact h
  · exact absurd hb (((List.pairwise_append.1 hs).2.2 i hi j h).asymm)

theorem mem_keys (c : Cfg) (n : Nat) (k : Key) : k ∈ c.keys n ↔ k.1 < n ∧ (k.2 = true → c.alpha = true) := by
  unfold Cfg.keys
  rw [List.mem_flatMap]
  obtain ⟨m, a⟩ := k
  constructor
  · rintro ⟨i, hi, h⟩
    have hi := List.mem_range.1 hi
    cases ha : c.alpha <;> rw [ha] at h <;> simp at h
    · obtain ⟨e1, e2⟩ := h
      subst e1 e2
      exact ⟨hi, fun h => nomatch h⟩
    · rcases h with ⟨e1, e2⟩ | ⟨e1, e2⟩ <;> subst e1 e2 <;> exact ⟨hi, fun _ => rfl⟩
  · rintro ⟨h1, h2⟩
    refine ⟨m, List.mem_range.2 h1, ?_⟩
    cases a with
    | false => simp
    | true => rw [if_pos (h2 rfl)]; simp

theorem keys_nodup (c : Cfg) (n : Nat) : (c.keys n).Nodup := by
  induction n with
  | zero => exact List.nodup_nil
  | succ n ih =>
    rw [keys_succ]
    refine List.nodup_append.2 ⟨ih, ?_, ?_⟩
    · cases c.alpha <;> simp
    · rintro a ha b hb rfl
      have := ((mem_keys c n a).1 ha).1
      have h2 : a.1 = n := by
        cases h : c.alpha <;> rw [h] at hb <;> simp at hb
        · rw [hb]
        · rcases hb with hb | hb <;> rw [hb]
      omega

theorem leftover_succ (got : Nat → Bool × Bool) (n : Nat) : leftover got (n + 1) = leftover got n ++
    ((if (got n).1 then [(n, false)] else []) ++ (if (got n).2 then [(n, true)] else [])) := by
  unfold leftover
  rw [List.range_succ, List.flatMap_append]
  simp

theorem mem_leftover (got : Nat → Bool × Bool) (n : Nat) (k : Key) :
    k ∈ leftover got n ↔ k.1 < n ∧ (if k.2 then (got k.1).2 else (got k.1).1) = true := by
  induction n with
  | zero =>
    constructor
    · intro h; cases h
    · intro h; omega
  | succ n ih =>
    rw [leftover_succ, List.mem_append, ih]
    obtain ⟨m, a⟩ := k
    by_cases e : m = n
    · subst e
      cases a <;> cases h1 : (got m).1 <;> cases h2 : (got m).2 <;> simp [h1, h2]
    · have : ((m, a) ∈ (if (got n).1 then [(n, false)] else []) ++ (if (got n).2 then [(n, true)] else [])) ↔ False := by
        cases h1 : (got n).1 <;> cases h2 : (got n).2 <;> simp [e]
      rw [this, or_false]
      constructor
      · rintro ⟨h1, h2⟩; exact ⟨by omega, h2⟩
      · rintro ⟨h1, h2⟩; exact ⟨by omega, h2⟩

theorem leftover_nodup (got : Nat → Bool × Bool) (n : Nat) : (leftover got n).Nodup := by
  induction n with
  | zero => exact List.nodup_nil
  | succ n ih =>
    rw [leftover_succ]
    refine List.nodup_append.2 ⟨ih, ?_, ?_⟩
    · cases (got n).1 <;> cases (got n).2 <;> simp
    · rintro a ha b hb rfl
      have := ((mem_leftover got n a).1 ha).1
      have h2 : a.1 = n := by
        cases h1 : (got n).1 <;> cases h2 : (got n).2 <;> rw [h1, h2] at hb <;> simp at hb
        · rw [hb]
        · rw [hb]
        · rcases hb with hb | hb <;> rw [hb]
      omega

theorem num_all {c : Cfg} {arr : List Key} {n : Nat} (h : ∀ i < n, Complete c arr i) : num c arr n = n := by
  induction n with
  | zero => rfl
  | succ n ih =>
    show num c arr n + (if Complete c arr n then 1 else 0) = _
    rw [if_pos (h n (by omega)), ih (fun i hi => h i (by omega))]

/-- Once the main thread has sent its requests, these are the requests. -/
theorem Inv.requests_iff {c : Cfg} {calm : Prop} {s : State} (hi : Inv c calm s) (hm : ∀ k half, s.main ≠ .issue k half) (n : Nat)
    (a : Bool) : (n, a) ∈ s.requests ↔ (a = true → c.alpha = true) ∧ n < s.requested := by
  rw [hi.reqMem n a]
  have : s.main.sentTo n a := by
    cases h : s.main with
    | issue k half => exact absurd h (hm k half)
    | waiting => trivial
    | finished => trivial
  constructor
  · exact fun h => ⟨h.1, h.2.1⟩
  · exact fun h => ⟨h.1, h.2, Or.inr this⟩

/-- Everything was answered without an error: everything was requested and written. -/
theorem Inv.all {c : Cfg} {calm : Prop} {s : State} (hi : Inv c calm s) (hr : 1 ≤ c.requests) (hm : ∀ k half, s.main ≠ .issue k half)
    (hs : s.sent = []) (ha : s.active = none) (he : s.err = false) : s.requested = c.total ∧ s.out = c.total := by
  have harr : ∀ n a, (n, a) ∈ s.requests → (n, a) ∈ s.arrived := by
    intro n a h
    rcases (hi.split _).1 h with h | h
    · rw [hs] at h; cases h
    · rcases hi.okAll he _ h with h | h | h
      · exact h
      · rw [ha] at h; cases h
      · rw [ha] at h; cases h
  have hcomp : ∀ n < s.requested, Complete c s.arrived n := fun n hn =>
    ⟨harr n false ((hi.requests_iff hm n false).2 ⟨(fun h => nomatch h), hn⟩),
      fun h => harr n true ((hi.requests_iff hm n true).2 ⟨fun _ => h, hn⟩)⟩
  have hreq : s.requested = c.total := by
    rcases hi.follow he with h | h
    · exact h
    · rw [num_all hcomp] at h
      have h1 : c.initial = 0 := by omega
      unfold Cfg.initial at h1
      have := hi.le
      omega
  refine ⟨hreq, ?_⟩
  have h1 : ¬s.out < s.requested := fun h => hi.stop (hcomp _ h)
  have h2 : s.out ≤ s.requested := by
    refine Nat.le_of_not_lt (fun h => ?_)
    have := hi.arr_lt (hi.done _ h).1
    omega
  omega

/-- The number of callbacks for the node or the alpha node when all requests were answered. -/
theorem Inv.count_calls {c : Cfg} {calm : Prop} {s : State} (hi : Inv c calm s) (hm : ∀ k half, s.main ≠ .issue k half)
    (hs : s.sent = []) (a : Bool) (ha : a = true → c.alpha = true) :
    s.calls.countP (fun k => k.2 == a) = s.requested := by
  have hnd : ((List.range s.requested).map (fun n => (n, a))).Nodup := by
    refine List.Pairwise.map _ ?_ List.nodup_range
    intro x y hne e
    injection e with e _
    exact hne e
  have hp : (s.calls.filter (fun k => k.2 == a)).Perm ((List.range s.requested).map (fun n => (n, a))) := by
    refine (List.perm_ext_iff_of_nodup (hi.callsNodup.filter _) hnd).2 ?_
    rintro ⟨n, b⟩
    rw [List.mem_filter, List.mem_map]
    simp only [beq_iff_eq, Prod.mk.injEq]
    have hc : (n, b) ∈ s.calls ↔ (n, b) ∈ s.requests := by
      rw [hi.split]
      rw [hs]
      simp
    rw [hc, hi.requests_iff hm]
    constructor
    · rintro ⟨⟨_, h2⟩, h3⟩
      exact ⟨n, List.mem_range.2 h2, rfl, h3.symm⟩
    · rintro ⟨m, h1, h2, h3⟩
      subst h2 h3
      exact ⟨⟨ha, List.mem_range.1 h1⟩, rfl⟩
  rw [List.countP_eq_length_filter, hp.length_eq, List.length_map, List.length_range]

/-- When all requests were answered the wait is over. -/
theorem Inv.ready {c : Cfg} {calm : Prop} {s : State} (hi : Inv c calm s) (hr : 1 ≤ c.requests) (hm : ∀ k half, s.main ≠ .issue k half)
    (hs : s.sent = []) (ha : s.active = none) : s.ready = true := by
  have htot : s.total = s.requested := by
    rw [hi.tot]
    cases he : s.err with
    | true => rfl
    | false =>
      have := (hi.all hr hm hs ha he).1
      simp only [Bool.false_eq_true, if_false]
      exact this.symm
  have h1 : s.completed = s.requested := by
    rw [hi.cnt, ← hi.count_calls hm hs false (fun h => nomatch h)]
    congr 1; funext k; cases k.2 <;> rfl
  have h2 : s.completedAlpha = s.requested := by
    rw [hi.cntAlpha]
    cases hc : c.alpha with
    | false => simp only [Bool.false_eq_true, if_false]; exact h1
    | true =>
      rw [if_pos rfl, ← hi.count_calls hm hs true (fun _ => hc)]
      congr 1; funext k; cases k.2 <;> rfl
  unfold State.ready
  rw [htot, h1, h2]
  simp

/-- How far the main thread is. -/
def Phase.steps (c : Cfg) : Phase → Nat
  | .issue k half => 2 * k + if half then 1 else 0
  | .waiting => 2 * c.initial + 1
  | .finished => 2 * c.initial + 2

theorem calls_le {c : Cfg} {calm : Prop} {s : State} (hi : Inv c calm s) : s.calls.length ≤ 2 * c.total := by
  have hl : ((List.range c.total).flatMap (fun i => [(i, false), (i, true)])).length = 2 * c.total := by
    induction c.total with
    | zero => rfl
    | succ n ih => rw [List.range_succ, List.flatMap_append, List.length_append, ih]; simp; omega
  rw [← hl]
  refine hi.callsNodup.length_le_of_subset ?_
  rintro ⟨n, a⟩ hk
  have := ((hi.reqMem n a).1 ((hi.split _).2 (Or.inr hk))).2.1
  have h2 := hi.le
  rw [List.mem_flatMap]
  exact ⟨n, List.mem_range.2 (by omega), by cases a <;> simp⟩

theorem run_length {c : Cfg} (hsame : c.same = false) {as : List Action} {s : State} (h : Run c as s) :
    as.length + (if s.active = none then 0 else 1) ≤ s.main.steps c + 2 * s.calls.length := by
  induction h with
  | nil => exact Nat.zero_le _
  | @snoc as s s' a hr hs ih =>
    have hi := run_inv hsame hr
    rw [List.length_append, List.length_singleton]
    cases a with
    | issue =>
      simp only [State.step] at hs
      split at hs
      · next k half hm =>
        injection hs with hs
        subst hs
        obtain ⟨p1, p2⟩ := hi.phase k half hm
        rw [hm] at ih
        unfold State.issue
        by_cases hk : k < c.initial
        · rw [if_pos hk]
          cases half with
          | true =>
            rw [if_pos rfl]
            show as.length + 1 + (if s.active = none then 0 else 1) ≤ (2 * (k + 1) + 0) + 2 * s.calls.length
            simp only [Phase.steps, if_true] at ih
            omega
          | false =>
            simp only [Phase.steps, Bool.false_eq_true, if_false] at ih
            rw [if_neg (show ¬(false = true) by simp)]
            cases c.alpha with
            | true =>
              show as.length + 1 + (if s.active = none then 0 else 1) ≤ (2 * k + 1) + 2 * s.calls.length
              omega
            | false =>
              show as.length + 1 + (if s.active = none then 0 else 1) ≤ (2 * (k + 1) + 0) + 2 * s.calls.length
              omega
        · rw [if_neg hk]
          cases half with
          | true => have := p2 rfl; omega
          | false =>
            simp only [Phase.steps, Bool.false_eq_true, if_false] at ih
            show as.length + 1 + (if s.active = none then 0 else 1) ≤ (2 * c.initial + 1) + 2 * s.calls.length
            omega
      · cases hs
    | «begin» k ok =>
      simp only [State.step] at hs
      split at hs
      · next hk =>
        injection hs with hs
        subst hs
        rw [if_pos hk.1] at ih
        have e1 : (s.begin c k ok).active = some (k, ok) := by unfold State.begin; split <;> rfl
        have e2 : (s.begin c k ok).calls = s.calls ++ [k] := by unfold State.begin; split <;> rfl
        have e3 : (s.begin c k ok).main = s.main := by unfold State.begin; split <;> rfl
        rw [e1, e2, e3, List.length_append, List.length_singleton, if_neg (fun h => nomatch h)]
        omega
      · cases hs
    | rest =>
      simp only [State.step] at hs
      split at hs
      · next k ok hk =>
        injection hs with hs
        subst hs
        rw [if_neg (by rw [hk]; exact fun h => nomatch h)] at ih
        have e : (s.rest c k ok).calls = s.calls ∧ (s.rest c k ok).main = s.main ∧ (s.rest c k ok).active = none := by
          have hout : ∀ t : State, (t.output c).calls = t.calls ∧ (t.output c).main = t.main ∧
              (t.output c).active = t.active := by
            intro t
            unfold State.output
            simp only
            split
            · exact ⟨rfl, rfl, rfl⟩
            · split <;> exact ⟨rfl, rfl, rfl⟩
          have hdr : ∀ (fuel : Nat) (t : State), (t.drain c fuel).calls = t.calls ∧ (t.drain c fuel).main = t.main ∧
              (t.drain c fuel).active = t.active := by
            intro fuel
            induction fuel with
            | zero => intro t; exact ⟨rfl, rfl, rfl⟩
            | succ fuel ihf =>
              intro t
              unfold State.drain
              split
              · obtain ⟨h1, h2, h3⟩ := ihf (t.output c)
                obtain ⟨g1, g2, g3⟩ := hout t
                exact ⟨h1.trans g1, h2.trans g2, h3.trans g3⟩
              · exact ⟨rfl, rfl, rfl⟩
          have hmo : ∀ (t : State) (n : Nat), (t.more c n).calls = t.calls ∧ (t.more c n).main = t.main ∧
              (t.more c n).active = t.active := by
            intro t n
            unfold State.more
            split
            · cases c.alpha <;> exact ⟨rfl, rfl, rfl⟩
            · exact ⟨rfl, rfl, rfl⟩
          unfold State.rest
          simp only
          split
          · rw [(hdr _ _).1, (hdr _ _).2.1, (hdr _ _).2.2, (hmo _ _).1, (hmo _ _).2.1, (hmo _ _).2.2]
            exact ⟨rfl, rfl, rfl⟩
          · exact ⟨rfl, rfl, rfl⟩
        rw [e.1, e.2.1, e.2.2, if_pos rfl]
        omega
      · cases hs
    | check =>
      simp only [State.step] at hs
      split at hs
      · next hk =>
        injection hs with hs
        subst hs
        obtain ⟨h1, h2, _⟩ := hk
        rw [h1, if_pos h2] at ih
        have e : s.finish.active = none ∧ s.finish.main = .finished ∧ s.finish.calls = s.calls := by
          unfold State.finish
          split <;> exact ⟨h2, rfl, rfl⟩
        rw [e.1, e.2.1, e.2.2, if_pos rfl]
        simp only [Phase.steps] at ih ⊢
        omega
      · cases hs
    | checkDuring =>
      simp only [State.step] at hs
      split at hs
      · next hk =>
        injection hs with hs
        subst hs
        obtain ⟨h1, h2, _⟩ := hk
        rw [h1, if_neg h2] at ih
        have e : s.finish.active = s.active ∧ s.finish.main = .finished ∧ s.finish.calls = s.calls := by
          unfold State.finish
          split <;> exact ⟨rfl, rfl, rfl⟩
        rw [e.1, e.2.1, e.2.2, if_neg h2]
        simp only [Phase.steps] at ih ⊢
        omega
      · cases hs

/-- After an error the number of requested frames stays. -/
theorem step_error {c : Cfg} {calm : Prop} {s s' : State} {a : Action} (hi : Inv c calm s)
    (he : s.err = true) (hs : s.step c a = some s') :
    s'.err = true ∧ s'.requested = s.requested ∧ (a ≠ .issue → s'.requests = s.requests) ∧
    s'.written = s.written := by
  have htot := hi.tot
  rw [he, if_pos rfl] at htot
  have hout : ∀ t : State, t.err = true → (t.output c).err = true ∧ (t.output c).requested = t.requested ∧
      (t.output c).requests = t.requests ∧ (t.output c).written = t.written := by
    intro t ht
    unfold State.output
    simp only [ht, if_true]
    exact ⟨trivial, trivial, trivial, trivial⟩
  have hdr : ∀ (fuel : Nat) (t : State), t.err = true → (t.drain c fuel).err = true ∧
      (t.drain c fuel).requested = t.requested ∧ (t.drain c fuel).requests = t.requests ∧
      (t.drain c fuel).written = t.written := by
    intro fuel
    induction fuel with
    | zero => intro t ht; exact ⟨ht, rfl, rfl, rfl⟩
    | succ fuel ihf =>
      intro t ht
      unfold State.drain
      split
      · obtain ⟨g1, g2, g3, g4⟩ := hout t ht
        obtain ⟨h1, h2, h3, h4⟩ := ihf (t.output c) g1
        exact ⟨h1, h2.trans g2, h3.trans g3, h4.trans g4⟩
      · exact ⟨ht, rfl, rfl, rfl⟩
  cases a with
  | issue =>
    simp only [State.step] at hs
    split at hs
    · injection hs with hs
      subst hs
      unfold State.issue
      split
      · split
        · exact ⟨he, rfl, (fun h => absurd rfl h), rfl⟩
        · split <;> exact ⟨he, rfl, (fun h => absurd rfl h), rfl⟩
      · exact ⟨he, rfl, (fun h => absurd rfl h), rfl⟩
    · cases hs
  | «begin» k ok =>
    simp only [State.step] at hs
    split at hs
    · injection hs with hs
      subst hs
      unfold State.begin
      split <;> exact ⟨he, rfl, fun _ => rfl, rfl⟩
    · cases hs
  | rest =>
    simp only [State.step] at hs
    split at hs
    · next k ok hk =>
      injection hs with hs
      subst hs
      unfold State.rest
      simp only
      split
      · have hmo : ∀ (t : State) (n : Nat), ¬t.requested < t.total → t.more c n = t := by
          intro t n ht
          unfold State.more
          rw [if_neg]
          rw [Bool.and_eq_true, decide_eq_true_eq]
          exact fun h => ht h.2
        rw [hmo _ _ (by simp only; omega)]
        obtain ⟨h1, h2, h3, h4⟩ := hdr (s.requested - s.out)
          { s with active := none, arrived := s.arrived ++ [k]
                   got := setGot s.got k.1 (if c.isMain k then (true, (s.got k.1).2) else ((s.got k.1).1, true)) } he
        exact ⟨h1, h2, fun _ => h3, h4⟩
      · exact ⟨rfl, rfl, fun _ => rfl, rfl⟩
    · cases hs
  | check =>
    simp only [State.step] at hs
    split at hs
    · injection hs with hs
      subst hs
      unfold State.finish
      split <;> exact ⟨he, rfl, fun _ => rfl, rfl⟩
    · cases hs
  | checkDuring =>
    simp only [State.step] at hs
    split at hs
    · injection hs with hs
      subst hs
      unfold State.finish
      split <;> exact ⟨he, rfl, fun _ => rfl, rfl⟩
    · cases hs

/-- Runs a list of actions. -/
def run (c : Cfg) : List Action → State → Option State
  | [], s => some s
  | a :: t, s => (s.step c a).bind (run c t)

theorem run_append {c : Cfg} : ∀ (l : List Action) {as : List Action} {s s' : State}, Run c as s →
    run c l s = some s' → Run c (as ++ l) s'
  | [], as, s, s', h, e => by
    injection e with e
    subst e
    rw [List.append_nil]
    exact h
  | a :: t, as, s, s', h, e => by
    unfold run at e
    cases hs : s.step c a with
    | none => rw [hs] at e; cases e
    | some s1 =>
      rw [hs] at e
      have := run_append t (.snoc h hs) e
      rw [List.append_assoc] at this
      exact this

theorem run_run {c : Cfg} {l : List Action} {s : State} (h : run c l (State.init c) = some s) : Run c l s := by
  have := run_append l .nil h
  exact this

end VS.Pipe
