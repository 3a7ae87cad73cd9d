import Verif.Map.LemmasRefine

/-!
# C01, C02: maps are dictionaries, and copies are independent

`World`/`run` is the code with its shared reference counted objects, `Spec.State`/`Spec.run` are
plain dictionaries.
-/

namespace VS.Map
open VS

/-- What the caller of a history sees: the results, an abort or undefined behaviour. -/
def seen {α : Type} (r : Res (α × List Out)) : Res (List Out) := do
  let p ← r
  .ok p.2

/-- A history that leads to world `w`, and to dictionaries `s` in the specification. -/
def Leads (ops : List Op) (w : World) (s : Spec.State) : Prop :=
  ∃ os, run World.empty ops = .ok (w, os) ∧ Spec.run Spec.State.empty ops = .ok (s, os)

/-- Every completed history leads to some dictionaries. -/
theorem leads_of_run {ops : List Op} {w : World} {os : List Out}
    (h : run World.empty ops = .ok (w, os)) : ∃ s, Leads ops w s ∧ Sim w s := by
  rcases run_match (ops := ops) sim_empty with ⟨w', s', os', e1, e2, hs⟩ | ⟨_, e1, _⟩ |
    ⟨_, e1, _⟩ | ⟨e1, _⟩
  · rw [h] at e1
    injection e1 with e1
    injection e1 with e1 e1'
    subst e1 e1'
    exact ⟨s', ⟨os, h, e2⟩, hs⟩
  all_goals (rw [h] at e1; cases e1)

theorem Leads.sim {ops : List Op} {w : World} {s : Spec.State} (h : Leads ops w s) : Sim w s := by
  obtain ⟨os, h1, h2⟩ := h
  obtain ⟨s', ⟨os', h3, h4⟩, hs⟩ := leads_of_run h1
  rw [h2] at h4
  injection h4 with h4
  injection h4 with h4 _
  subst h4
  exact hs

theorem seen_run {w : World} {s : Spec.State} (h : Sim w s) (ops : List Op) :
    seen (run w ops) = seen (Spec.run s ops) := by
  rcases run_match (ops := ops) h with ⟨w', s', os', e1, e2, hs⟩ | ⟨_, e1, e2⟩ |
    ⟨_, e1, e2⟩ | ⟨e1, e2⟩ <;> rw [e1, e2] <;> rfl

/-- C01: whatever is called, in whatever order, on however many maps, every result is the one
plain dictionaries give. -/
theorem C01_map_is_dictionary (ops : List Op) :
    seen (run World.empty ops) = seen (Spec.run Spec.State.empty ops) := seen_run sim_empty ops

example : seen (run World.empty
    [.create, .setInt 0 "a" 1 1, .setInt 0 "a" 2 1, .clone 0, .setInt 1 "a" 3 1, .getIntArray 0 "a" true,
     .getInt 1 "a" 2 true, .getInt 0 "a" 2 true, .delete 0 "a", .numElements 0 "a", .numElements 1 "a"])
    = .ok [.handle 0, .code 0, .code 0, .handle 1, .code 0, .array (some [.int 1, .int 2]) 0,
      .int 3 0, .int 0 4, .code 1, .code (-1), .code 3] := by decide

/-- C01: `mapNumKeys` and `mapGetKey` list exactly the keys of the dictionary, in increasing
order, each once. -/
theorem C01_keys_enumerated (ops : List Op) (w : World) (s : Spec.State) (m : Nat) (d : Spec.Dict)
    (h : Leads ops w s) (hm : s[m]? = some (some d)) :
    ∃ ks : List Key, ks.Pairwise (· < ·) ∧ (∀ k, k ∈ ks ↔ d.get k ≠ none) ∧
      mapNumKeys w m = .ok ks.length ∧
      (∀ i : Nat, mapGetKey w m i = .ok ks[i]?) ∧ ∀ i : Int, i < 0 → mapGetKey w m i = .ok none := by
  have hs := h.sim
  have hd : dictOf w m = some d := by rw [← hs.dict m, hm]; rfl
  obtain ⟨t, st, hmt, hst, rfl⟩ := dictOf_some hd
  refine ⟨st.data.map (·.1), ?_, ?_, ?_, ?_, ?_⟩
  · rw [List.pairwise_map]; exact hs.good.sorted t st hst
  · intro k
    rw [ne_eq, find_none_iff hs.good hst]
    constructor
    · intro hk hf
      obtain ⟨e, he, rfl⟩ := List.mem_map.mp hk
      rw [find_of_mem (hs.good.sorted t st hst) he] at hf
      cases hf
    · intro hf
      cases hc : find st.data k with
      | none => exact absurd hc hf
      | some a => exact List.mem_map.mpr ⟨(k, a), find_mem hc, rfl⟩
  · simp [mapNumKeys, mapSto, hmt, getS, hst]
  · intro i
    have : ¬ ((i : Int) < 0) := by omega
    simp [mapGetKey, mapSto, hmt, getS, hst, this]
  · intro i hi
    simp [mapGetKey, mapSto, hmt, getS, hst, hi]

example : ∃ w s, Leads [.create, .setInt 0 "b" 1 0, .setFloat 0 "a" 2 0] w s ∧
    mapNumKeys w 0 = .ok 2 ∧ mapGetKey w 0 0 = .ok (some "a") ∧ mapGetKey w 0 1 = .ok (some "b") :=
  ⟨_, _, ⟨_, rfl, rfl⟩, by decide, by decide, by decide⟩

/-- The setting calls, and the code they return on failure. -/
def isSetter : Op → Bool
  | .setInt .. | .setFloat .. | .setData .. | .setNode .. | .setFrame .. | .setFunction ..
  | .setEmpty .. | .setIntArray .. | .setFloatArray .. => true
  | _ => false

theorem setter_fail {s s' : Spec.State} {m : Nat} {k : Key} {v : Val} {ty : PType} {a : Int}
    (h : Spec.setter s m k v ty a = .ok (s', .code 1)) : s' = s := by
  unfold Spec.setter at h
  split at h
  · cases h
  split at h
  · injection h with h; injection h with h _; exact h.symm
  · cases hl : Spec.look s m with
    | ok d =>
      rw [hl, Res.bind_ok] at h
      split at h
      · injection h with h; injection h with _ h; injection h with h; cases h
      · injection h with h; injection h with h _; exact h.symm
    | err e => rw [hl] at h; cases h
    | fatal e => rw [hl] at h; cases h
    | ub => rw [hl] at h; cases h

theorem setArray_fail {s s' : Spec.State} {m : Nat} {k : Key} {l : List Val} {ty : PType}
    (h : Spec.setArray s m k l ty = .ok (s', .code 1)) : False := by
  unfold Spec.setArray at h
  cases hl : Spec.look s m with
  | ok d =>
    rw [hl, Res.bind_ok] at h
    injection h with h; injection h with _ h; injection h with h; cases h
  | err e => rw [hl] at h; cases h
  | fatal e => rw [hl] at h; cases h
  | ub => rw [hl] at h; cases h

theorem step_ok {w w' : World} {s : Spec.State} {op : Op} {o : Out} (h : Sim w s)
    (he : step w op = .ok (w', o)) : ∃ s', Spec.step s op = .ok (s', o) ∧ Sim w' s' := by
  have hm := step_match h op
  rw [he] at hm
  generalize hq : Spec.step s op = q at hm
  cases hm with
  | ok hw hl hs => exact ⟨_, rfl, ⟨hw, hl, hs⟩⟩

theorem spec_step_ok {w : World} {s s' : Spec.State} {op : Op} {o : Out} (h : Sim w s)
    (he : Spec.step s op = .ok (s', o)) : ∃ w', step w op = .ok (w', o) ∧ Sim w' s' := by
  have hm := step_match h op
  rw [he] at hm
  generalize hq : step w op = q at hm
  cases hm with
  | ok hw hl hs => exact ⟨_, rfl, ⟨hw, hl, hs⟩⟩

/-- C01: a set that reports failure has changed nothing: everything seen afterwards is what
would have been seen without it. -/
theorem C01_failed_set_no_effect (ops : List Op) (w w' : World) (s : Spec.State) (op : Op)
    (h : Leads ops w s) (hop : isSetter op = true) (hf : step w op = .ok (w', .code 1))
    (later : List Op) : seen (run w' later) = seen (run w later) := by
  have hs := h.sim
  obtain ⟨s', he, hs'⟩ := step_ok hs hf
  have : s' = s := by
    cases op with
    | setInt => exact setter_fail he
    | setFloat => exact setter_fail he
    | setData m k d l hi a =>
      simp only [Spec.step] at he
      cases hb : Spec.bytes d l with
      | some b => rw [hb] at he; exact setter_fail he
      | none => rw [hb] at he; cases he
    | setNode => exact setter_fail he
    | setFrame => exact setter_fail he
    | setFunction => exact setter_fail he
    | setEmpty m k t =>
      simp only [Spec.step, Spec.setEmpty] at he
      split at he
      · injection he with he; injection he with he _; exact he.symm
      · cases hl : Spec.look s m with
        | ok d =>
          rw [hl, Res.bind_ok] at he
          split at he
          · injection he with he; injection he with _ he; injection he with he; cases he
          · injection he with he; injection he with he _; exact he.symm
        | err e => rw [hl] at he; cases he
        | fatal e => rw [hl] at he; cases he
        | ub => rw [hl] at he; cases he
    | setIntArray m k d n =>
      simp only [Spec.step] at he
      split at he
      · injection he with he; injection he with he _; exact he.symm
      split at he
      · cases he
      · exact (setArray_fail he).elim
    | setFloatArray m k d n =>
      simp only [Spec.step] at he
      split at he
      · injection he with he; injection he with he _; exact he.symm
      split at he
      · cases he
      · exact (setArray_fail he).elim
    | _ => cases hop
  subst this
  rw [seen_run hs', seen_run hs]

example : ∃ w w' s, Leads [.create, .setInt 0 "a" 1 0] w s ∧ isSetter (.setFloat 0 "a" 5 1) = true ∧
    step w (.setFloat 0 "a" 5 1) = .ok (w', .code 1) := ⟨_, _, _, ⟨_, rfl, rfl⟩, rfl, rfl⟩

/-! ## Which map and key a call touches -/

/-- The map a call may change. -/
def writes : Op → Option Nat
  | .assign dst _ => some dst
  | .copy _ dst => some dst
  | .free m | .clear m | .setError m _ | .setInt m .. | .setFloat m .. | .setData m ..
  | .setNode m .. | .setFrame m .. | .setFunction m .. | .setEmpty m .. | .setIntArray m ..
  | .setFloatArray m .. | .delete m _ => some m
  | _ => none

/-- Reads through a map. -/
inductive Read where
  | numElements (k : Key)
  | getType (k : Key)
  | getInt (k : Key) (index : Int) (errPtr : Bool)
  | getIntSaturated (k : Key) (index : Int) (errPtr : Bool)
  | getFloat (k : Key) (index : Int) (errPtr : Bool)
  | getData (k : Key) (index : Int) (errPtr : Bool)
  | getNode (k : Key) (index : Int) (errPtr : Bool)
  | getFrame (k : Key) (index : Int) (errPtr : Bool)
  | getFunction (k : Key) (index : Int) (errPtr : Bool)
  | getIntArray (k : Key) (errPtr : Bool)
  | getFloatArray (k : Key) (errPtr : Bool)
  | getError

/-- The call that makes a read. -/
def Read.op : Read → Nat → Op
  | .numElements k, m => .numElements m k
  | .getType k, m => .getType m k
  | .getInt k i e, m => .getInt m k i e
  | .getIntSaturated k i e, m => .getIntSaturated m k i e
  | .getFloat k i e, m => .getFloat m k i e
  | .getData k i e, m => .getData m k i e
  | .getNode k i e, m => .getNode m k i e
  | .getFrame k i e, m => .getFrame m k i e
  | .getFunction k i e, m => .getFunction m k i e
  | .getIntArray k e, m => .getIntArray m k e
  | .getFloatArray k e, m => .getFloatArray m k e
  | .getError, m => .getError m

/-- The answer to a read. -/
def answer (w : World) (r : Read) (m : Nat) : Res Out := do
  let p ← step w (r.op m)
  .ok p.2

/-- The key a read looks at. -/
def Read.key : Read → Option Key
  | .numElements k | .getType k | .getInt k _ _ | .getIntSaturated k _ _ | .getFloat k _ _
  | .getData k _ _ | .getNode k _ _ | .getFrame k _ _ | .getFunction k _ _ | .getIntArray k _
  | .getFloatArray k _ => some k
  | .getError => none

/-- The specification's answer, from the dictionary. -/
theorem read_fn (r : Read) : ∃ g : Spec.Dict → Res Out,
    (∀ s m, Spec.step s (r.op m) = Spec.reading s m g) ∧
    ∀ k, r.key = some k → ∀ d d' : Spec.Dict, d.err = d'.err → d.get k = d'.get k →
      d.get (Spec.canon k) = d'.get (Spec.canon k) → g d = g d' := by
  cases r with
  | numElements k =>
    refine ⟨_, fun s m => rfl, ?_⟩
    intro k' hk d d' h1 h2 h3
    injection hk with hk; subst hk; simp only [h3]
  | getType k =>
    refine ⟨_, fun s m => rfl, ?_⟩
    intro k' hk d d' h1 h2 h3
    injection hk with hk; subst hk; simp only [h3]
  | getInt k =>
    refine ⟨_, fun s m => rfl, ?_⟩
    intro k' hk d d' h1 h2 h3
    injection hk with hk; subst hk; simp only [Spec.readInt, Spec.readAt, h1, h3]
  | getIntSaturated k =>
    refine ⟨_, fun s m => rfl, ?_⟩
    intro k' hk d d' h1 h2 h3
    injection hk with hk; subst hk; simp only [Spec.readIntSat, Spec.readAt, h1, h3]
  | getFloat k =>
    refine ⟨_, fun s m => rfl, ?_⟩
    intro k' hk d d' h1 h2 h3
    injection hk with hk; subst hk; simp only [Spec.readFloat, Spec.readAt, h1, h2]
  | getData k =>
    refine ⟨_, fun s m => rfl, ?_⟩
    intro k' hk d d' h1 h2 h3
    injection hk with hk; subst hk; simp only [Spec.readData, Spec.readAt, h1, h2]
  | getNode k =>
    refine ⟨_, fun s m => rfl, ?_⟩
    intro k' hk d d' h1 h2 h3
    injection hk with hk; subst hk; simp only [Spec.readRef, Spec.readAt, h1, h2]
  | getFrame k =>
    refine ⟨_, fun s m => rfl, ?_⟩
    intro k' hk d d' h1 h2 h3
    injection hk with hk; subst hk; simp only [Spec.readRef, Spec.readAt, h1, h2]
  | getFunction k =>
    refine ⟨_, fun s m => rfl, ?_⟩
    intro k' hk d d' h1 h2 h3
    injection hk with hk; subst hk; simp only [Spec.readFunction, Spec.readAt, h1, h2]
  | getIntArray k =>
    refine ⟨_, fun s m => rfl, ?_⟩
    intro k' hk d d' h1 h2 h3
    injection hk with hk; subst hk; simp only [Spec.readArray, Spec.readAt, h1, h3]
  | getFloatArray k =>
    refine ⟨_, fun s m => rfl, ?_⟩
    intro k' hk d d' h1 h2 h3
    injection hk with hk; subst hk; simp only [Spec.readArray, Spec.readAt, h1, h2]
  | getError =>
    refine ⟨_, fun s m => rfl, ?_⟩
    intro k' hk
    cases hk

/-- An answer depends only on the dictionary of the map. -/
theorem answer_eq {w : World} {s : Spec.State} (h : Sim w s) {r : Read} {m : Nat}
    {g : Spec.Dict → Res Out} (hg : ∀ s m, Spec.step s (r.op m) = Spec.reading s m g) :
    answer w r m = match dictOf w m with | some d => g d | none => .ub := by
  have hm := step_match h (r.op m)
  rw [hg] at hm
  unfold answer
  unfold Spec.reading at hm
  rw [h.look] at hm
  generalize step w (r.op m) = p at hm
  cases hd : dictOf w m with
  | none =>
    rw [hd] at hm
    simp only [Res.bind_ub] at hm
    cases hm; rfl
  | some d =>
    rw [hd] at hm
    simp only [Res.bind_ok] at hm ⊢
    generalize g d = q at hm
    cases q with
    | ok o => cases hm; rfl
    | err o => cases hm; rfl
    | fatal o => cases hm; rfl
    | ub => cases hm; rfl

theorem answer_congr {w w' : World} {s s' : Spec.State} (h : Sim w s) (h' : Sim w' s') (r : Read)
    {m m' : Nat} (hd : dictOf w m = dictOf w' m') : answer w r m = answer w' r m' := by
  obtain ⟨g, hg, -⟩ := read_fn r
  rw [answer_eq h hg, answer_eq h' hg, hd]

/-- The key a setting call names. -/
def setKey : Op → Option (Nat × Key)
  | .setInt m k .. | .setFloat m k .. | .setData m k .. | .setNode m k .. | .setFrame m k ..
  | .setFunction m k .. | .setEmpty m k .. | .setIntArray m k .. | .setFloatArray m k ..
  | .delete m k => some (m, k)
  | _ => none

/-- Equal apart from two keys. -/
def SameBut (d d' : Spec.Dict) (k : Key) : Prop :=
  d'.err = d.err ∧ ∀ k', k' ≠ k → k' ≠ Spec.canon k → d'.get k' = d.get k'

theorem SameBut.refl (d : Spec.Dict) (k : Key) : SameBut d d k := ⟨rfl, fun _ _ _ => rfl⟩

/-- In the specification, a call on another handle, or naming another key, leaves the entry. -/
theorem upd_other {s : Spec.State} {m m' : Nat} {v : Option Spec.Dict} (hne : m' ≠ m) :
    (Spec.upd s m v)[m']?.join = s[m']?.join := by
  unfold Spec.upd
  rw [List.getElem?_set_ne (Ne.symm hne)]

theorem look_some {s : Spec.State} {m : Nat} {d : Spec.Dict} (h : Spec.look s m = .ok d) :
    s[m]?.join = some d ∧ m < s.length := by
  unfold Spec.look at h
  cases hc : s[m]?.join with
  | none => rw [hc] at h; cases h
  | some e =>
    rw [hc] at h
    injection h with h
    subst h
    refine ⟨rfl, ?_⟩
    rcases Nat.lt_or_ge m s.length with hl | hl
    · exact hl
    · rw [List.getElem?_eq_none hl] at hc; cases hc

theorem bind_look {α : Type} {s : Spec.State} {m : Nat} {f : Spec.Dict → Res α} {x : α}
    (h : (Spec.look s m).bind f = .ok x) :
    ∃ d, s[m]?.join = some d ∧ m < s.length ∧ Spec.look s m = .ok d ∧ f d = .ok x := by
  cases hl : Spec.look s m with
  | ok d => rw [hl] at h; exact ⟨d, (look_some hl).1, (look_some hl).2, rfl, h⟩
  | err e => rw [hl] at h; cases h
  | fatal e => rw [hl] at h; cases h
  | ub => rw [hl] at h; cases h

/-- A step that only touches entry `m`, and of it only keys `k` and `canon k`. -/
def Local (s s' : Spec.State) (m : Nat) (k : Key) : Prop :=
  (∀ m', m' ≠ m → s'[m']?.join = s[m']?.join) ∧
  ∀ d, s[m]?.join = some d → ∃ d', s'[m]?.join = some d' ∧ SameBut d d' k

theorem Local.refl (s : Spec.State) (m : Nat) (k : Key) : Local s s m k :=
  ⟨fun _ _ => rfl, fun d hd => ⟨d, hd, SameBut.refl d k⟩⟩

theorem Local.put {s : Spec.State} {m : Nat} {k k' : Key} {d : Spec.Dict} {e : Option Spec.Entry}
    (hd : s[m]?.join = some d) (hlt : m < s.length) (hk : k' = k ∨ k' = Spec.canon k) :
    Local s (Spec.upd s m (some (d.put k' e))) m k := by
  refine ⟨fun m' hne => upd_other hne, ?_⟩
  intro d0 hd0
  rw [hd] at hd0
  injection hd0 with hd0
  subst hd0
  refine ⟨d.put k' e, by unfold Spec.upd; rw [join_set hlt]; simp, rfl, ?_⟩
  intro k0 h1 h2
  have : k0 ≠ k' := by rcases hk with rfl | rfl <;> assumption
  simp [Spec.Dict.put, this]

theorem setVal_shape {d d' : Spec.Dict} {k : Key} {v : Val} {ty : PType} {a : Int}
    (h : Spec.setVal d k v ty a = some d') : ∃ e, d' = d.put k e := by
  unfold Spec.setVal at h
  split at h
  · cases h
  split at h
  · injection h with h; exact ⟨_, h.symm⟩
  split at h
  · split at h
    · injection h with h; exact ⟨_, h.symm⟩
    · split at h
      · injection h with h; exact ⟨_, h.symm⟩
      · cases h
  · split at h
    · injection h with h; exact ⟨_, h.symm⟩
    · cases h

theorem setter_local {s s' : Spec.State} {m : Nat} {k k' : Key} {v : Val} {ty : PType} {a : Int}
    {o : Out} (hk : k' = k ∨ k' = Spec.canon k)
    (h : Spec.setter s m k' v ty a = .ok (s', o)) : Local s s' m k := by
  unfold Spec.setter at h
  split at h
  · cases h
  split at h
  · injection h with h; injection h with h _; subst h; exact Local.refl _ _ _
  · obtain ⟨d, hd, hlt, -, h⟩ := bind_look h
    split at h
    · rename_i d' hv
      injection h with h; injection h with h _; subst h
      obtain ⟨e, rfl⟩ := setVal_shape hv
      exact Local.put hd hlt hk
    · injection h with h; injection h with h _; subst h; exact Local.refl _ _ _

theorem setArray_local {s s' : Spec.State} {m : Nat} {k k' : Key} {l : List Val} {ty : PType}
    {o : Out} (hk : k' = k ∨ k' = Spec.canon k)
    (h : Spec.setArray s m k' l ty = .ok (s', o)) : Local s s' m k := by
  obtain ⟨d, hd, hlt, -, h⟩ := bind_look h
  injection h with h; injection h with h _; subst h
  exact Local.put hd hlt hk

theorem set_local {s s' : Spec.State} {op : Op} {o : Out} {m : Nat} {k : Key}
    (hk : setKey op = some (m, k)) (h : Spec.step s op = .ok (s', o)) : Local s s' m k := by
  cases op with
  | setInt => injection hk with hk; injection hk with h1 h2; subst h1 h2; exact setter_local (.inr rfl) h
  | setFloat => injection hk with hk; injection hk with h1 h2; subst h1 h2; exact setter_local (.inl rfl) h
  | setData m k d l hi a =>
    injection hk with hk; injection hk with h1 h2; subst h1 h2
    simp only [Spec.step] at h
    cases hb : Spec.bytes d l with
    | some b => rw [hb] at h; exact setter_local (.inl rfl) h
    | none => rw [hb] at h; cases h
  | setNode => injection hk with hk; injection hk with h1 h2; subst h1 h2; exact setter_local (.inl rfl) h
  | setFrame => injection hk with hk; injection hk with h1 h2; subst h1 h2; exact setter_local (.inl rfl) h
  | setFunction => injection hk with hk; injection hk with h1 h2; subst h1 h2; exact setter_local (.inl rfl) h
  | setEmpty m' k' t =>
    injection hk with hk; injection hk with h1 h2; subst h1 h2
    simp only [Spec.step, Spec.setEmpty] at h
    split at h
    · injection h with h; injection h with h _; subst h; exact Local.refl _ _ _
    · obtain ⟨d, hd, hlt, -, h⟩ := bind_look h
      split at h
      · injection h with h; injection h with h _; subst h
        refine Local.put hd hlt ?_
        by_cases ht : t = 1
        · exact .inr (if_pos ht)
        · exact .inl (if_neg ht)
      · injection h with h; injection h with h _; subst h; exact Local.refl _ _ _
  | setIntArray =>
    injection hk with hk; injection hk with h1 h2; subst h1 h2
    simp only [Spec.step] at h
    split at h
    · injection h with h; injection h with h _; subst h; exact Local.refl _ _ _
    split at h
    · cases h
    · exact setArray_local (.inr rfl) h
  | setFloatArray =>
    injection hk with hk; injection hk with h1 h2; subst h1 h2
    simp only [Spec.step] at h
    split at h
    · injection h with h; injection h with h _; subst h; exact Local.refl _ _ _
    split at h
    · cases h
    · exact setArray_local (.inl rfl) h
  | delete m' k' =>
    injection hk with hk; injection hk with h1 h2; subst h1 h2
    obtain ⟨d, hd, hlt, -, h⟩ := bind_look h
    split at h
    · rename_i hc
      injection h with h; injection h with h _; subst h
      refine ⟨fun m0 hne => upd_other hne, ?_⟩
      intro d0 hd0
      rw [hd] at hd0
      injection hd0 with hd0
      subst hd0
      refine ⟨(d.put k' none).put "_Range" none,
        by unfold Spec.upd; rw [join_set hlt, if_pos rfl], rfl, ?_⟩
      intro k0 h1 h2
      have e : Spec.canon k' = "_Range" := by rw [hc]; rfl
      rw [e] at h2
      simp [Spec.Dict.put, h1, h2]
    · injection h with h; injection h with h _; subst h
      exact Local.put hd hlt (.inl rfl)
  | _ => cases hk

/-- C01: a set or delete naming one key does not change what is read under any other key, where
`_ColorRange` and `_Range` count as one key. -/
theorem C01_other_keys_untouched (ops : List Op) (w w' : World) (s : Spec.State) (op : Op) (o : Out)
    (m : Nat) (k k' : Key) (r : Read) (h : Leads ops w s) (hop : setKey op = some (m, k))
    (hst : step w op = .ok (w', o)) (hr : r.key = some k') (hne : Spec.canon k' ≠ Spec.canon k) :
    answer w' r m = answer w r m := by
  have hs := h.sim
  obtain ⟨s', he, hs'⟩ := step_ok hs hst
  have hl := set_local hop he
  obtain ⟨g, hg, hg'⟩ := read_fn r
  rw [answer_eq hs' hg, answer_eq hs hg]
  have h1 : k' ≠ k := by intro e; subst e; exact hne rfl
  have hcc : ∀ x, Spec.canon (Spec.canon x) = Spec.canon x := by
    intro x; unfold Spec.canon
    by_cases hx : x = "_ColorRange"
    · rw [if_pos hx]; decide
    · rw [if_neg hx, if_neg hx]
  have h2 : k' ≠ Spec.canon k := by intro e; subst e; rw [hcc] at hne; exact hne rfl
  have h3 : Spec.canon k' ≠ k := by intro e; rw [← e, hcc] at hne; exact hne rfl
  cases hd : dictOf w m with
  | none =>
    rw [← hs.dict] at hd
    have : s'[m]?.join = none := by
      -- a setting call on a dead handle changes nothing
      cases hd' : s'[m]?.join with
      | none => rfl
      | some d' =>
        exfalso
        have hdead : Spec.look s m = .ub := by unfold Spec.look; rw [hd]
        have hub : ∀ {k v ty a s'' o}, Spec.setter s m k v ty a = .ok (s'', o) → s'' = s := by
          intro k v ty a s'' o h
          unfold Spec.setter at h
          split at h
          · cases h
          split at h
          · injection h with h; injection h with h _; exact h.symm
          · rw [hdead] at h; cases h
        have hub2 : ∀ {k l ty s'' o}, Spec.setArray s m k l ty = .ok (s'', o) → s'' = s := by
          intro k l ty s'' o h
          unfold Spec.setArray at h
          rw [hdead] at h; cases h
        have hss : s' = s := by
          cases op with
          | setInt => injection hop with hop; injection hop with e1 e2; subst e1 e2; exact hub he
          | setFloat => injection hop with hop; injection hop with e1 e2; subst e1 e2; exact hub he
          | setData m k d l hi a =>
            injection hop with hop; injection hop with e1 e2; subst e1 e2
            simp only [Spec.step] at he
            cases hb : Spec.bytes d l with
            | some b => rw [hb] at he; exact hub he
            | none => rw [hb] at he; cases he
          | setNode => injection hop with hop; injection hop with e1 e2; subst e1 e2; exact hub he
          | setFrame => injection hop with hop; injection hop with e1 e2; subst e1 e2; exact hub he
          | setFunction => injection hop with hop; injection hop with e1 e2; subst e1 e2; exact hub he
          | setEmpty m' k' t =>
            injection hop with hop; injection hop with e1 e2; subst e1 e2
            simp only [Spec.step, Spec.setEmpty] at he
            split at he
            · injection he with he; injection he with he _; exact he.symm
            · rw [hdead] at he; cases he
          | setIntArray =>
            injection hop with hop; injection hop with e1 e2; subst e1 e2
            simp only [Spec.step] at he
            split at he
            · injection he with he; injection he with he _; exact he.symm
            split at he
            · cases he
            · exact hub2 he
          | setFloatArray =>
            injection hop with hop; injection hop with e1 e2; subst e1 e2
            simp only [Spec.step] at he
            split at he
            · injection he with he; injection he with he _; exact he.symm
            split at he
            · cases he
            · exact hub2 he
          | delete m' k' =>
            injection hop with hop; injection hop with e1 e2; subst e1 e2
            simp only [Spec.step, Spec.delete] at he
            rw [hdead] at he; cases he
          | _ => cases hop
        rw [hss, hd] at hd'
        cases hd'
    rw [← hs'.dict, this]
  | some d =>
    obtain ⟨d', hd', herr, hget⟩ := hl.2 d (by rw [hs.dict]; exact hd)
    rw [← hs'.dict, hd']
    refine hg' k' hr d' d herr (hget k' h1 h2) (hget _ h3 ?_)
    intro e; exact hne e

example : ∃ w w' s o, Leads [.create, .setInt 0 "a" 1 0, .setFloat 0 "b" 7 0] w s ∧
    step w (.setInt 0 "a" 5 1) = .ok (w', o) ∧ Spec.canon "b" ≠ Spec.canon "a" ∧
    answer w' (.getFloat "b" 0 true) 0 = .ok (.float 7 0) :=
  ⟨_, _, _, _, ⟨_, rfl, rfl⟩, rfl, by decide, by decide⟩

/-! ## C02 -/

/-- In the specification a call changes at most the map it writes. -/
theorem step_other {s s' : Spec.State} {op : Op} {o : Out} {m : Nat} {d : Spec.Dict}
    (hw : writes op ≠ some m) (h : Spec.step s op = .ok (s', o)) (hd : s[m]?.join = some d) :
    s'[m]?.join = some d := by
  have hlt : m < s.length := by
    rcases Nat.lt_or_ge m s.length with hl | hl
    · exact hl
    · rw [List.getElem?_eq_none hl] at hd; cases hd
  have hread : ∀ {m' g}, Spec.reading s m' g = .ok (s', o) → s'[m]?.join = some d := by
    intro m' g h
    obtain ⟨d0, -, -, -, h⟩ := bind_look h
    cases hg : g d0 with
    | ok x => rw [hg] at h; injection h with h; injection h with h _; subst h; exact hd
    | err e => rw [hg] at h; cases h
    | fatal e => rw [hg] at h; cases h
    | ub => rw [hg] at h; cases h
  have hset : ∀ {m' k}, setKey op = some (m', k) → m ≠ m' → s'[m]?.join = some d := by
    intro m' k hk hne
    rw [(set_local hk h).1 m hne, hd]
  cases op with
  | create =>
    injection h with h; injection h with h _; subst h
    rw [List.getElem?_append_left hlt, hd]
  | clone src =>
    obtain ⟨d0, -, -, -, h⟩ := bind_look h
    injection h with h; injection h with h _; subst h
    rw [List.getElem?_append_left hlt, hd]
  | assign dst src =>
    simp only [Spec.step] at h
    split at h
    · injection h with h; injection h with h _; subst h; exact hd
    · obtain ⟨_, -, -, -, h⟩ := bind_look h
      obtain ⟨_, -, -, -, h⟩ := bind_look h
      injection h with h; injection h with h _; subst h
      rw [upd_other (fun e => hw (by rw [e]; rfl)), hd]
  | copy src dst =>
    simp only [Spec.step] at h
    split at h
    · injection h with h; injection h with h _; subst h; exact hd
    · obtain ⟨_, -, -, -, h⟩ := bind_look h
      obtain ⟨_, -, -, -, h⟩ := bind_look h
      injection h with h; injection h with h _; subst h
      rw [upd_other (fun e => hw (by rw [e]; rfl)), hd]
  | free m' =>
    obtain ⟨_, -, -, -, h⟩ := bind_look h
    injection h with h; injection h with h _; subst h
    rw [upd_other (fun e => hw (by rw [e]; rfl)), hd]
  | clear m' =>
    obtain ⟨_, -, -, -, h⟩ := bind_look h
    injection h with h; injection h with h _; subst h
    rw [upd_other (fun e => hw (by rw [e]; rfl)), hd]
  | setError m' msg =>
    obtain ⟨_, -, -, -, h⟩ := bind_look h
    injection h with h; injection h with h _; subst h
    rw [upd_other (fun e => hw (by rw [e]; rfl)), hd]
  | setInt => exact hset rfl (fun e => hw (by rw [e]; rfl))
  | setFloat => exact hset rfl (fun e => hw (by rw [e]; rfl))
  | setData => exact hset rfl (fun e => hw (by rw [e]; rfl))
  | setNode => exact hset rfl (fun e => hw (by rw [e]; rfl))
  | setFrame => exact hset rfl (fun e => hw (by rw [e]; rfl))
  | setFunction => exact hset rfl (fun e => hw (by rw [e]; rfl))
  | setEmpty => exact hset rfl (fun e => hw (by rw [e]; rfl))
  | setIntArray => exact hset rfl (fun e => hw (by rw [e]; rfl))
  | setFloatArray => exact hset rfl (fun e => hw (by rw [e]; rfl))
  | delete => exact hset rfl (fun e => hw (by rw [e]; rfl))
  | numElements => exact hread h
  | getType => exact hread h
  | getInt => exact hread h
  | getIntSaturated => exact hread h
  | getFloat => exact hread h
  | getData => exact hread h
  | getNode => exact hread h
  | getFrame => exact hread h
  | getFunction => exact hread h
  | getIntArray => exact hread h
  | getFloatArray => exact hread h
  | getError => exact hread h

theorem run_other : ∀ {later : List Op} {w w' : World} {s : Spec.State} {os : List Out} {m : Nat}
    {d : Spec.Dict}, Sim w s → (∀ op ∈ later, writes op ≠ some m) →
    run w later = .ok (w', os) → dictOf w m = some d → ∃ s', Sim w' s' ∧ dictOf w' m = some d := by
  intro later
  induction later with
  | nil =>
    intro w w' s os m d hs _ hr hd
    injection hr with hr; injection hr with hr _; subst hr
    exact ⟨s, hs, hd⟩
  | cons op t ih =>
    intro w w' s os m d hs hw hr hd
    simp only [run] at hr
    cases hst : step w op with
    | ok p =>
      obtain ⟨w1, o1⟩ := p
      rw [hst, Res.bind_ok] at hr
      obtain ⟨s1, he1, hs1⟩ := step_ok hs hst
      have hd1 : dictOf w1 m = some d := by
        rw [← hs1.dict]
        exact step_other (hw op (by simp)) he1 (by rw [hs.dict]; exact hd)
      cases hrt : run w1 t with
      | ok q =>
        obtain ⟨w2, os2⟩ := q
        simp only [hrt, Res.bind_ok] at hr
        injection hr with hr; injection hr with hr _; subst hr
        exact ih hs1 (fun op' h' => hw op' (by simp [h'])) hrt hd1
      | err e => simp only [hrt] at hr; cases hr
      | fatal e => simp only [hrt] at hr; cases hr
      | ub => simp only [hrt] at hr; cases hr
    | err e => rw [hst] at hr; cases hr
    | fatal e => rw [hst] at hr; cases hr
    | ub => rw [hst] at hr; cases hr

/-- C02: no sequence of calls made on other maps, whatever storage they share with map `m`,
changes the answer to any read of `m`. -/
theorem C02_copies_independent (ops later : List Op) (w w' : World) (s : Spec.State)
    (os : List Out) (m : Nat) (d : Spec.Dict) (r : Read) (h : Leads ops w s)
    (hm : s[m]? = some (some d)) (hl : ∀ op ∈ later, writes op ≠ some m)
    (hr : run w later = .ok (w', os)) : answer w' r m = answer w r m := by
  have hs := h.sim
  have hd : dictOf w m = some d := by rw [← hs.dict m, hm]; rfl
  obtain ⟨s', hs', hd'⟩ := run_other hs hl hr hd
  exact answer_congr hs' hs r (hd'.trans hd.symm)

example : ∃ w w' s os, Leads [.create, .setInt 0 "a" 1 0, .clone 0] w s ∧
    run w [.setInt 0 "a" 2 1, .clear 0, .free 0] = .ok (w', os) ∧
    (∀ op ∈ [Op.setInt 0 "a" 2 1, .clear 0, .free 0], writes op ≠ some 1) ∧
    answer w' (.getIntArray "a" true) 1 = .ok (.array (some [.int 1]) 0) :=
  ⟨_, _, _, _, ⟨_, rfl, rfl⟩, rfl, by decide, by decide⟩

/-- C02: a fresh copy answers every read like its source. -/
theorem C02_clone_equal (ops : List Op) (w w' : World) (s : Spec.State) (src c : Nat) (r : Read)
    (h : Leads ops w s) (hc : step w (.clone src) = .ok (w', .handle c)) :
    answer w' r c = answer w r src ∧ answer w' r src = answer w r src := by
  have hs := h.sim
  obtain ⟨s', he, hs'⟩ := step_ok hs hc
  obtain ⟨d, hd, hlt, -, he'⟩ := bind_look he
  injection he' with he'
  injection he' with e1 e2
  injection e2 with e2
  subst e1 e2
  have h1 : dictOf w src = some d := by rw [← hs.dict]; exact hd
  constructor
  · refine answer_congr hs' hs r ?_
    rw [← hs'.dict, h1]; simp
  · refine answer_congr hs' hs r ?_
    rw [← hs'.dict, List.getElem?_append_left hlt, h1]; exact hd

example : ∃ w w' s, Leads [.create, .setInt 0 "a" 1 0] w s ∧
    step w (.clone 0) = .ok (w', .handle 1) := ⟨_, _, _, ⟨_, rfl, rfl⟩, rfl⟩

theorem run_append {w : World} {a b : List Op} : run w (a ++ b) = (do
    let p ← run w a
    let q ← run p.1 b
    .ok (q.1, p.2 ++ q.2)) := by
  induction a generalizing w with
  | nil => simp only [List.nil_append, run, Res.bind_ok]; cases run w b <;> rfl
  | cons op t ih =>
    simp only [List.cons_append, run, ih]
    cases step w op with
    | ok p =>
      simp only [Res.bind_ok]
      cases run p.1 t with
      | ok q =>
        simp only [Res.bind_ok]
        cases run q.1 b <;> rfl
      | err e => rfl
      | fatal e => rfl
      | ub => rfl
    | err e => rfl
    | fatal e => rfl
    | ub => rfl

theorem spec_run_append {w : Spec.State} {a b : List Op} : Spec.run w (a ++ b) = (do
    let p ← Spec.run w a
    let q ← Spec.run p.1 b
    .ok (q.1, p.2 ++ q.2)) := by
  induction a generalizing w with
  | nil => simp only [List.nil_append, Spec.run, Res.bind_ok]; cases Spec.run w b <;> rfl
  | cons op t ih =>
    simp only [List.cons_append, Spec.run, ih]
    cases Spec.step w op with
    | ok p =>
      simp only [Res.bind_ok]
      cases Spec.run p.1 t with
      | ok q =>
        simp only [Res.bind_ok]
        cases Spec.run q.1 b <;> rfl
      | err e => rfl
      | fatal e => rfl
      | ub => rfl
    | err e => rfl
    | fatal e => rfl
    | ub => rfl

theorem Leads.snoc {ops : List Op} {w : World} {s s' : Spec.State} {op : Op} {o : Out}
    (h : Leads ops w s) (he : Spec.step s op = .ok (s', o)) :
    ∃ w', step w op = .ok (w', o) ∧ Leads (ops ++ [op]) w' s' := by
  obtain ⟨w', hw', -⟩ := spec_step_ok h.sim he
  obtain ⟨os, h1, h2⟩ := h
  refine ⟨w', hw', os ++ [o], ?_, ?_⟩
  · rw [run_append, h1]; simp [run, hw']
  · rw [spec_run_append, h2]; simp [Spec.run, he]

/-- C02: `copyMap` gives the destination every key of the source and keeps the others. -/
theorem C02_copyMap_merges (ops : List Op) (w : World) (s : Spec.State) (src dst : Nat)
    (d e : Spec.Dict) (h : Leads ops w s) (hne : src ≠ dst) (hd : s[dst]? = some (some d))
    (he : s[src]? = some (some e)) :
    ∃ w' s' d', step w (.copy src dst) = .ok (w', .unit) ∧
      Leads (ops ++ [.copy src dst]) w' s' ∧ s'[dst]? = some (some d') ∧
      ∀ k, d'.get k = match e.get k with | some x => some x | none => d.get k := by
  have hlt : dst < s.length := (List.getElem?_eq_some_iff.mp hd).1
  have hl : Spec.step s (.copy src dst) = .ok (Spec.upd s dst (some (d.merge e)), .unit) := by
    simp [Spec.step, hne, Spec.look, hd, he]
  obtain ⟨w', h1, h2⟩ := h.snoc hl
  exact ⟨w', _, d.merge e, h1, h2, by simp [Spec.upd, hlt], fun k => rfl⟩

example : ∃ w w' s, Leads [.create, .setInt 0 "a" 1 0, .create] w s ∧
    step w (.copy 0 1) = .ok (w', .unit) := ⟨_, _, _, ⟨_, rfl, rfl⟩, rfl⟩

/-- C02: a storage exists exactly while a map holds it and an array exactly while a storage holds
it: nothing is lost and nothing is freed early. -/
theorem C02_freed_exactly (ops : List Op) (w : World) (os : List Out)
    (h : run World.empty ops = .ok (w, os)) :
    (∀ t, w.stos.get t ≠ none ↔ ∃ m, w.maps.get m = some t) ∧
    (∀ a, w.arrs.get a ≠ none ↔ ∃ t st k, w.stos.get t = some st ∧ (k, a) ∈ st.data) := by
  obtain ⟨s, -, hs⟩ := leads_of_run h
  have hw := hs.good
  constructor
  · intro t
    constructor
    · intro ht
      obtain ⟨st, hst⟩ := Option.ne_none_iff_exists'.mp ht
      have h1 := hw.stoRc t st hst
      have h2 : 0 < w.maps.sumOver fun s' => if s' = t then 1 else 0 := by
        have : mrefs w t = w.maps.sumOver fun s' => if s' = t then 1 else 0 := rfl
        simp only [none0] at h1
        omega
      obtain ⟨m, x, hm, hx⟩ := Heap.exists_of_sumOver_pos h2
      have hx := eq_of_ite_pos hx
      subst hx
      exact ⟨m, hm⟩
    · rintro ⟨m, hm⟩
      obtain ⟨st, hst⟩ := hw.mapLive m t hm
      rw [hst]; simp
  · intro a
    constructor
    · intro ha
      obtain ⟨x, hx⟩ := Option.ne_none_iff_exists'.mp ha
      have h1 := hw.arrRc a x hx
      have h2 : 0 < w.stos.sumOver fun st => refsIn st.data a := by
        have : arefs w a = w.stos.sumOver fun st => refsIn st.data a := rfl
        simp only [none0] at h1
        omega
      obtain ⟨t, st, hst, hp⟩ := Heap.exists_of_sumOver_pos h2
      unfold refsIn at hp
      obtain ⟨e, he, rfl⟩ := List.mem_map.mp (List.count_pos_iff.mp hp)
      exact ⟨t, st, e.1, hst, he⟩
    · rintro ⟨t, st, k, hst, hmem⟩
      obtain ⟨x, hx⟩ := hw.entLive t st hst _ hmem
      rw [hx]; simp

example : ∃ w os, run World.empty [.create, .setInt 0 "a" 1 0, .clone 0, .setInt 1 "b" 2 0, .free 0]
    = .ok (w, os) ∧ w.stos.get 0 = none ∧ w.stos.get 1 ≠ none := ⟨_, _, rfl, by decide, by decide⟩

/-- C02: once every map has been freed nothing is left. -/
theorem C02_all_freed (ops : List Op) (w : World) (os : List Out)
    (h : run World.empty ops = .ok (w, os)) (hf : ∀ m, w.maps.get m = none) :
    (∀ t, w.stos.get t = none) ∧ ∀ a, w.arrs.get a = none := by
  obtain ⟨h1, h2⟩ := C02_freed_exactly ops w os h
  have hst : ∀ t, w.stos.get t = none := by
    intro t
    refine Classical.byContradiction fun hc => ?_
    obtain ⟨m, hm⟩ := (h1 t).mp hc
    rw [hf m] at hm; cases hm
  refine ⟨hst, fun a => ?_⟩
  refine Classical.byContradiction fun hc => ?_
  obtain ⟨t, st, k, ht, -⟩ := (h2 a).mp hc
  rw [hst t] at ht; cases ht

example : ∃ w os, run World.empty [.create, .setInt 0 "a" 1 0, .clone 0, .setInt 1 "b" 2 0, .free 0,
    .free 1] = .ok (w, os) ∧ w.maps = [none, none] ∧ w.arrs = [none, none] :=
  ⟨_, _, rfl, by decide, by decide⟩

end VS.Map
