import Verif.Map.PropsDict

/-!
# C03, C04: read errors and the `_ColorRange` alias
-/

namespace VS.Map
open VS

/-! ## C03 -/

/-- The element readers of the API. -/
inductive Reader where
  | int | intSaturated | float | data | node | frame | function

/-- The call. -/
def Reader.op : Reader → Nat → Key → Int → Bool → Op
  | .int, m, k, i, e => .getInt m k i e
  | .intSaturated, m, k, i, e => .getIntSaturated m k i e
  | .float, m, k, i, e => .getFloat m k i e
  | .data, m, k, i, e => .getData m k i e
  | .node, m, k, i, e => .getNode m k i e
  | .frame, m, k, i, e => .getFrame m k i e
  | .function, m, k, i, e => .getFunction m k i e

/-- The types it accepts. -/
def Reader.types : Reader → List PType
  | .int | .intSaturated => [.int]
  | .float => [.float]
  | .data => [.data]
  | .node => [.videoNode, .audioNode]
  | .frame => [.videoFrame, .audioFrame]
  | .function => [.function]

/-- The name it looks up: integers know the `_ColorRange` alias. -/
def Reader.name : Reader → Key → Key
  | .int, k | .intSaturated, k => Spec.canon k
  | _, k => k

/-- What it returns with an error code. -/
def Reader.failed : Reader → Int → Out
  | .int, c | .intSaturated, c => .int 0 c
  | .float, c => .float 0 c
  | .data, c => .data none c
  | .node, c | .frame, c | .function, c => .obj none c

/-- How it presents a value of the right type. -/
def Reader.shown : Reader → Key → Val → Out
  | .int, k, .int v => .int (Spec.trans k v) 0
  | .intSaturated, k, .int v => .int (Spec.saturate (Spec.trans k v)) 0
  | .float, _, .float v => .float v 0
  | .data, _, .data h b => .data (some (h, b)) 0
  | _, _, .obj p => .obj p 0
  | _, _, _ => .unit

/-- The documented outcome of reading element `i` under key `k`: 3 for an error map, 1 for a
missing key, 4 for a bad index, 2 for a wrong type, 0 for success, in this order. -/
def readCode (d : Spec.Dict) (k : Key) (i : Int) (types : List PType) : Int :=
  if d.err = true then 3
  else match d.get k with
    | none => 1
    | some (ty, l) => if i < 0 ∨ (l.length : Int) ≤ i then 4 else if ty ∈ types then 0 else 2

theorem readCode_one (d : Spec.Dict) (k : Key) (i : Int) (ty : PType) :
    Spec.readAt d k i ty = if readCode d k i [ty] = 0 then
      (match d.get k with
        | some (_, l) => match l[i.toNat]? with | some v => .inr v | none => .inl 0
        | none => .inl 0)
      else .inl (readCode d k i [ty]) := by
  unfold Spec.readAt readCode
  cases he : d.err with
  | true => simp
  | false =>
    simp only [Bool.false_eq_true, if_false]
    cases hg : d.get k with
    | none => simp
    | some en =>
      obtain ⟨ty', l⟩ := en
      simp only [List.mem_singleton]
      by_cases hi : i < 0
      · simp [hi]
      · by_cases hl : (l.length : Int) ≤ i
        · have : l[i.toNat]? = none := by rw [List.getElem?_eq_none_iff]; omega
          simp [hi, hl, this]
        · have hlt : i.toNat < l.length := by omega
          have hb : ¬ (i < 0 ∨ (l.length : Int) ≤ i) := by omega
          rw [if_neg hi, if_neg hb, List.getElem?_eq_getElem hlt]
          by_cases ht : ty' = ty <;> simp [ht]

theorem readCode_two {d : Spec.Dict} {k : Key} {i : Int} {a b : PType}
    (h : readCode d k i [a] ≠ 0) : readCode d k i [a, b] = readCode d k i [b] := by
  unfold readCode at h ⊢
  cases he : d.err with
  | true => rfl
  | false =>
    simp only [he, Bool.false_eq_true, if_false] at h ⊢
    cases hg : d.get k with
    | none => rfl
    | some en =>
      obtain ⟨ty', l⟩ := en
      simp only [hg] at h ⊢
      by_cases hi : i < 0 ∨ (l.length : Int) ≤ i
      · rw [if_pos hi, if_pos hi]
      · rw [if_neg hi] at h ⊢
        rw [if_neg hi]
        by_cases ha : ty' = a
        · simp [ha] at h
        · simp [ha]

theorem readCode_two' {d : Spec.Dict} {k : Key} {i : Int} {a b : PType}
    (h : readCode d k i [a] = 0) : readCode d k i [a, b] = 0 := by
  unfold readCode at h ⊢
  cases he : d.err with
  | true => simp [he] at h
  | false =>
    simp only [he, Bool.false_eq_true, if_false] at h ⊢
    cases hg : d.get k with
    | none => simp [hg] at h
    | some en =>
      obtain ⟨ty', l⟩ := en
      simp only [hg] at h ⊢
      by_cases hi : i < 0 ∨ (l.length : Int) ≤ i
      · rw [if_pos hi] at h; cases h
      · rw [if_neg hi] at h ⊢
        by_cases ha : ty' = a
        · simp [ha]
        · simp [ha] at h

/-- Values in the specification's dictionaries have the type of their entry. -/
theorem dict_fits {w : World} {s : Spec.State} (h : Sim w s) {m : Nat} {d : Spec.Dict}
    (hm : s[m]? = some (some d)) {k : Key} {ty : PType} {l : List Val}
    (hg : d.get k = some (ty, l)) : ∀ v ∈ l, Spec.Fits ty v := by
  have hd : dictOf w m = some d := by rw [← h.dict m, hm]; rfl
  obtain ⟨t, st, hmt, hst, rfl⟩ := dictOf_some hd
  obtain ⟨a, x, hfa, hxa, hen, hok⟩ := find_some_iff h.good hst hg
  have hxt : x.ty = ty := by simp [entry] at hen; exact hen.1
  have hxl : contents x = l := by simp [entry] at hen; exact hen.2
  intro v hv
  rw [← hxt]
  exact hok.fits v (by rw [hxl]; exact hv)

theorem failWith_fatal (o : Int → Out) (c : Int) : ∃ msg, Spec.failWith o false c = .fatal msg := by
  unfold Spec.failWith
  simp only [Bool.false_eq_true, if_false]
  split
  · exact ⟨_, rfl⟩
  split
  · exact ⟨_, rfl⟩
  split <;> exact ⟨_, rfl⟩

theorem failWith_true (o : Int → Out) (c : Int) : Spec.failWith o true c = .ok (o c) := rfl

/-- What a specification read must be, given the code. -/
def Expected (rd : Reader) (d : Spec.Dict) (k : Key) (i : Int) (e : Bool) (q : Res Out) : Prop :=
  (readCode d (rd.name k) i rd.types ≠ 0 → e = true →
    q = .ok (rd.failed (readCode d (rd.name k) i rd.types))) ∧
  (readCode d (rd.name k) i rd.types ≠ 0 → e = false → ∃ msg, q = .fatal msg) ∧
  (readCode d (rd.name k) i rd.types = 0 → ∃ ty l v, d.get (rd.name k) = some (ty, l) ∧
    l[i.toNat]? = some v ∧ q = if v = .obj none then .ub else .ok (rd.shown k v))

theorem readAt_cases {d : Spec.Dict} {k : Key} {i : Int} {ty : PType}
    (hfit : ∀ ty l, d.get k = some (ty, l) → ∀ v ∈ l, Spec.Fits ty v) :
    (∃ l v, Spec.readAt d k i ty = .inr v ∧ readCode d k i [ty] = 0 ∧ d.get k = some (ty, l) ∧
      l[i.toNat]? = some v ∧ Spec.Fits ty v) ∨
    (Spec.readAt d k i ty = .inl (readCode d k i [ty]) ∧ readCode d k i [ty] ≠ 0) := by
  rw [readCode_one]
  by_cases hc : readCode d k i [ty] = 0
  · left
    rw [if_pos hc]
    unfold readCode at hc
    cases he : d.err with
    | true => simp [he] at hc
    | false =>
      simp only [he, Bool.false_eq_true, if_false] at hc
      cases hg : d.get k with
      | none => simp [hg] at hc
      | some en =>
        obtain ⟨ty', l⟩ := en
        simp only [hg] at hc
        by_cases hi : i < 0 ∨ (l.length : Int) ≤ i
        · rw [if_pos hi] at hc; cases hc
        · rw [if_neg hi] at hc
          by_cases ht : ty' = ty
          · subst ht
            have hlt : i.toNat < l.length := by omega
            refine ⟨l, l[i.toNat], by simp [hlt], ?_, rfl, by simp [hlt], ?_⟩
            · unfold readCode; simp [he, hg, hi]
            · exact hfit _ _ hg _ (List.getElem_mem hlt)
          · simp [ht] at hc
  · right
    rw [if_neg hc]
    exact ⟨rfl, hc⟩

theorem expected_one {rd : Reader} {d : Spec.Dict} {k : Key} {i : Int} {e : Bool} {ty : PType}
    (hty : rd.types = [ty])
    (hfit : ∀ ty l, d.get (rd.name k) = some (ty, l) → ∀ v ∈ l, Spec.Fits ty v)
    {f : Val → Res Out}
    (hf : ∀ v, Spec.Fits ty v → f v = if v = .obj none then .ub else .ok (rd.shown k v)) :
    Expected rd d k i e (match Spec.readAt d (rd.name k) i ty with
      | .inl c => Spec.failWith rd.failed e c
      | .inr v => f v) := by
  rcases readAt_cases (i := i) (ty := ty) hfit with ⟨l, v, h1, h2, h3, h4, h5⟩ | ⟨h1, h2⟩
  · rw [h1]
    refine ⟨fun h => absurd (hty ▸ h2) h, fun h => absurd (hty ▸ h2) h, fun _ => ?_⟩
    exact ⟨ty, l, v, h3, h4, hf v h5⟩
  · rw [h1]
    refine ⟨?_, ?_, fun h => absurd (hty ▸ h) h2⟩
    · rintro - rfl; rw [hty]; rfl
    · rintro - rfl; exact failWith_fatal _ _

theorem expected_two {rd : Reader} {d : Spec.Dict} {k : Key} {i : Int} {e : Bool} {a b : PType}
    (hty : rd.types = [a, b])
    (hfit : ∀ ty l, d.get (rd.name k) = some (ty, l) → ∀ v ∈ l, Spec.Fits ty v)
    {f : Val → Res Out}
    (hf : ∀ v, Spec.Fits a v ∨ Spec.Fits b v →
      f v = if v = .obj none then .ub else .ok (rd.shown k v)) :
    Expected rd d k i e (match Spec.readAt d (rd.name k) i a with
      | .inr v => f v
      | .inl _ => match Spec.readAt d (rd.name k) i b with
        | .inl c => Spec.failWith rd.failed e c
        | .inr v => f v) := by
  rcases readAt_cases (i := i) (ty := a) hfit with ⟨l, v, h1, h2, h3, h4, h5⟩ | ⟨h1, h2⟩
  · rw [h1]
    have h2' := readCode_two' (b := b) h2
    refine ⟨fun h => absurd (hty ▸ h2') h, fun h => absurd (hty ▸ h2') h, fun _ => ?_⟩
    exact ⟨a, l, v, h3, h4, hf v (.inl h5)⟩
  · rw [h1]
    have h12 := readCode_two (b := b) h2
    rcases readAt_cases (i := i) (ty := b) hfit with ⟨l, v, h1', h2', h3, h4, h5⟩ | ⟨h1', h2'⟩
    · rw [h1']
      rw [← h12] at h2'
      refine ⟨fun h => absurd (hty ▸ h2') h, fun h => absurd (hty ▸ h2') h, fun _ => ?_⟩
      exact ⟨b, l, v, h3, h4, hf v (.inr h5)⟩
    · rw [h1']
      rw [← h12] at h2' ⊢
      refine ⟨?_, ?_, fun h => absurd (hty ▸ h) h2'⟩
      · rintro - rfl; rw [hty]; rfl
      · rintro - rfl; exact failWith_fatal _ _

theorem fits_obj {v : Val} (h : Spec.Fits .function v ∨ Spec.Fits .videoNode v ∨
    Spec.Fits .audioNode v ∨ Spec.Fits .videoFrame v ∨ Spec.Fits .audioFrame v) :
    ∃ p, v = .obj p := by
  cases v with
  | obj p => exact ⟨p, rfl⟩
  | _ => simp [Spec.Fits] at h

/-- C03: for every map content, key, index and reader: if the documented condition for success
holds the stored element comes back (with code 0), otherwise the documented code comes back if
there is an error pointer and the process is stopped if there is none.  The map is unchanged.
(Reading a stored null reference is outside of the contract, `ub`.) -/
theorem C03_read_outcome (ops : List Op) (w : World) (s : Spec.State) (m : Nat) (d : Spec.Dict)
    (rd : Reader) (k : Key) (i : Int) (e : Bool) (h : Leads ops w s)
    (hm : s[m]? = some (some d)) :
    (readCode d (rd.name k) i rd.types ≠ 0 → e = true →
      step w (rd.op m k i e) = .ok (w, rd.failed (readCode d (rd.name k) i rd.types))) ∧
    (readCode d (rd.name k) i rd.types ≠ 0 → e = false →
      ∃ msg, step w (rd.op m k i e) = .fatal msg) ∧
    (readCode d (rd.name k) i rd.types = 0 → ∃ ty l v, d.get (rd.name k) = some (ty, l) ∧
      l[i.toNat]? = some v ∧
      step w (rd.op m k i e) = if v = .obj none then .ub else .ok (w, rd.shown k v)) := by
  have hs := h.sim
  have hfit : ∀ k ty l, d.get k = some (ty, l) → ∀ v ∈ l, Spec.Fits ty v :=
    fun k ty l hg => dict_fits hs hm hg
  have hread : ∃ q, Spec.step s (rd.op m k i e) = (do let o ← q; .ok (s, o)) ∧
      Expected rd d k i e q := by
    have hl : Spec.look s m = .ok d := by unfold Spec.look; rw [hm]; rfl
    cases rd with
    | int =>
      refine ⟨Spec.readInt d k i e, by simp [Reader.op, Spec.step, Spec.reading, hl], ?_⟩
      have := expected_one (rd := .int) (k := k) (i := i) (e := e) rfl (hfit _)
        (f := fun v => match v with | .int v => .ok (.int (Spec.trans k v) 0) | _ => .ub)
        (by intro v hv; obtain ⟨x, rfl⟩ := fits_int hv; simp [Reader.shown])
      unfold Spec.readInt
      simp only [Reader.name] at this
      generalize Spec.readAt d (Spec.canon k) i .int = q at this ⊢
      cases q with
      | inl c => exact this
      | inr v => cases v <;> exact this
    | intSaturated =>
      refine ⟨Spec.readIntSat d k i e, by simp [Reader.op, Spec.step, Spec.reading, hl], ?_⟩
      have := expected_one (rd := .intSaturated) (k := k) (i := i) (e := e) rfl (hfit _)
        (f := fun v => match v with
          | .int v => .ok (.int (Spec.saturate (Spec.trans k v)) 0) | _ => .ub)
        (by intro v hv; obtain ⟨x, rfl⟩ := fits_int hv; simp [Reader.shown])
      unfold Spec.readIntSat
      simp only [Reader.name] at this
      generalize Spec.readAt d (Spec.canon k) i .int = q at this ⊢
      cases q with
      | inl c => exact this
      | inr v => cases v <;> exact this
    | float =>
      refine ⟨Spec.readFloat d k i e, by simp [Reader.op, Spec.step, Spec.reading, hl], ?_⟩
      have := expected_one (rd := .float) (k := k) (i := i) (e := e) rfl (hfit _)
        (f := fun v => match v with | .float v => .ok (.float v 0) | _ => .ub)
        (by intro v hv; obtain ⟨x, rfl⟩ := fits_float hv; simp [Reader.shown])
      unfold Spec.readFloat
      simp only [Reader.name] at this
      generalize Spec.readAt d k i .float = q at this ⊢
      cases q with
      | inl c => exact this
      | inr v => cases v <;> exact this
    | data =>
      refine ⟨Spec.readData d k i e, by simp [Reader.op, Spec.step, Spec.reading, hl], ?_⟩
      have := expected_one (rd := .data) (k := k) (i := i) (e := e) rfl (hfit _)
        (f := fun v => match v with | .data h b => .ok (.data (some (h, b)) 0) | _ => .ub)
        (by intro v hv; obtain ⟨x, y, rfl⟩ := fits_data hv; simp [Reader.shown])
      unfold Spec.readData
      simp only [Reader.name] at this
      generalize Spec.readAt d k i .data = q at this ⊢
      cases q with
      | inl c => exact this
      | inr v => cases v <;> exact this
    | function =>
      refine ⟨Spec.readFunction d k i e, by simp [Reader.op, Spec.step, Spec.reading, hl], ?_⟩
      have := expected_one (rd := .function) (k := k) (i := i) (e := e) rfl (hfit _)
        (f := Spec.refOut)
        (by
          intro v hv
          obtain ⟨x, rfl⟩ := fits_obj (.inl hv)
          cases x <;> simp [Reader.shown, Spec.refOut])
      exact this
    | node =>
      refine ⟨Spec.readRef d k i e .videoNode .audioNode,
        by simp [Reader.op, Spec.step, Spec.reading, hl], ?_⟩
      have := expected_two (rd := .node) (k := k) (i := i) (e := e) rfl (hfit _)
        (f := Spec.refOut)
        (by
          intro v hv
          obtain ⟨x, rfl⟩ := fits_obj (.inr (hv.elim .inl (fun h => .inr (.inl h))))
          cases x <;> simp [Reader.shown, Spec.refOut])
      exact this
    | frame =>
      refine ⟨Spec.readRef d k i e .videoFrame .audioFrame,
        by simp [Reader.op, Spec.step, Spec.reading, hl], ?_⟩
      have := expected_two (rd := .frame) (k := k) (i := i) (e := e) rfl (hfit _)
        (f := Spec.refOut)
        (by
          intro v hv
          obtain ⟨x, rfl⟩ := fits_obj (.inr (.inr (.inr hv)))
          cases x <;> simp [Reader.shown, Spec.refOut])
      exact this
  have hw : ∀ w' o, step w (rd.op m k i e) = .ok (w', o) → w' = w := by
    intro w' o he
    have key : ∀ {α : Type} {f : α → Out} {r : Res α}, retRead w f r = .ok (w', o) → w' = w := by
      intro α f r hr
      cases r with
      | ok v => injection hr with hr; injection hr with hr _; exact hr.symm
      | err e => cases hr
      | fatal e => cases hr
      | ub => cases hr
    cases rd <;> exact key he
  obtain ⟨q, hq, hE1, hE2, hE3⟩ := hread
  have hmatch := step_match hs (rd.op m k i e)
  rw [hq] at hmatch
  generalize hstep : step w (rd.op m k i e) = p at hmatch hw
  refine ⟨?_, ?_, ?_⟩
  · intro h1 h2
    rw [hE1 h1 h2] at hmatch
    simp only [Res.bind_ok] at hmatch
    cases hmatch
    rw [hw _ _ rfl]
  · intro h1 h2
    obtain ⟨msg, hq'⟩ := hE2 h1 h2
    rw [hq'] at hmatch
    cases hmatch
    exact ⟨msg, rfl⟩
  · intro h1
    obtain ⟨ty, l, v, hg, hv, hq'⟩ := hE3 h1
    refine ⟨ty, l, v, hg, hv, ?_⟩
    rw [hq'] at hmatch
    by_cases hn : v = .obj none
    · rw [if_pos hn] at hmatch ⊢
      cases hmatch; rfl
    · rw [if_neg hn] at hmatch ⊢
      simp only [Res.bind_ok] at hmatch
      cases hmatch
      rw [hw _ _ rfl]

/-- All five outcomes occur. -/
example : ∃ w s, Leads [.create, .setInt 0 "a" 7 0, .create, .setError 1 [65]] w s ∧
    step w (Reader.int.op 0 "a" 0 true) = .ok (w, .int 7 0) ∧
    step w (Reader.int.op 0 "b" 0 true) = .ok (w, .int 0 1) ∧
    step w (Reader.float.op 0 "a" 0 true) = .ok (w, .float 0 2) ∧
    step w (Reader.float.op 0 "a" 1 true) = .ok (w, .float 0 4) ∧
    step w (Reader.int.op 1 "a" 0 true) = .ok (w, .int 0 3) ∧
    step w (Reader.node.op 0 "a" 0 false) = .fatal "wrong type" :=
  ⟨_, _, ⟨_, rfl, rfl⟩, by decide, by decide, by decide, by decide, by decide, by decide⟩

/-- C03: the array readers report like an element read of index 0, and give all elements. -/
theorem C03_read_array (ops : List Op) (w : World) (s : Spec.State) (m : Nat) (d : Spec.Dict)
    (k : Key) (e : Bool) (h : Leads ops w s) (hm : s[m]? = some (some d)) (c : Int)
    (hc : c = readCode d k 0 [.float]) :
    (c ≠ 0 → e = true → answer w (.getFloatArray k e) m = .ok (.array none c)) ∧
    (c ≠ 0 → e = false → ∃ msg, answer w (.getFloatArray k e) m = .fatal msg) ∧
    (c = 0 → ∃ l, d.get k = some (.float, l) ∧
      answer w (.getFloatArray k e) m = .ok (.array (some l) 0)) := by
  subst hc
  have hs := h.sim
  have hd : dictOf w m = some d := by rw [← hs.dict m, hm]; rfl
  have ha : answer w (.getFloatArray k e) m = Spec.readArray d k e .float id := by
    rw [answer_eq hs (r := .getFloatArray k e) (g := fun d => Spec.readArray d k e .float id)
      (fun _ _ => rfl), hd]
  rw [ha]
  unfold Spec.readArray
  rcases readAt_cases (i := 0) (ty := .float) (fun ty l hg => dict_fits hs hm (k := k) hg) with
    ⟨l, v, h1, h2, h3, h4, h5⟩ | ⟨h1, h2⟩
  · rw [h1, h3]
    exact ⟨fun h => absurd h2 h, fun h => absurd h2 h, fun _ => ⟨l, rfl, rfl⟩⟩
  · rw [h1]
    refine ⟨?_, ?_, fun h => absurd h h2⟩
    · rintro - rfl; rfl
    · rintro - rfl; exact failWith_fatal _ _

example : ∃ w s, Leads [.create, .setFloatArray 0 "a" [1, 2, 3] 3] w s ∧
    answer w (.getFloatArray "a" true) 0 = .ok (.array (some [.float 1, .float 2, .float 3]) 0) :=
  ⟨_, _, ⟨_, rfl, rfl⟩, by decide⟩

/-! ## C04 -/

/-- Both names of the colour range. -/
def RangeName (k : Key) : Prop := k = "_ColorRange" ∨ k = "_Range"

/-- The value to expect under name `k'` for a value `i` written under name `k`: the same under
the same name, the inverted encoding under the other. -/
def across (k k' : Key) (i : Int) : Int := if k = k' then i else if i = 0 then 1 else if i = 1 then 0 else i

theorem trans_across {k k' : Key} (hk : RangeName k) (hk' : RangeName k') (i : Int) :
    Spec.trans k' (Spec.trans k i) = across k k' i := by
  have hf : Spec.flip (Spec.flip i) = i := by
    unfold Spec.flip
    by_cases h0 : i = 0
    · simp [h0]
    · by_cases h1 : i = 1
      · simp [h1]
      · simp [h0, h1]
  rcases hk with rfl | rfl <;> rcases hk' with rfl | rfl
  · simp [Spec.trans, across, hf]
  · simp [Spec.trans, across, Spec.flip]
  · simp [Spec.trans, across, Spec.flip]
  · simp [Spec.trans, across]

theorem canon_range {k : Key} (hk : RangeName k) : Spec.canon k = "_Range" := by
  rcases hk with rfl | rfl <;> rfl

/-- C04: a value set under either name reads back under either name. -/
theorem C04_scalar (ops : List Op) (w : World) (s : Spec.State) (m : Nat) (d : Spec.Dict)
    (k k' : Key) (i : Int) (e : Bool) (h : Leads ops w s) (hm : s[m]? = some (some d))
    (herr : d.err = false) (hk : RangeName k) (hk' : RangeName k') :
    ∃ w', step w (.setInt m k i 0) = .ok (w', .code 0) ∧
      answer w' (.getInt k' 0 e) m = .ok (.int (across k k' i) 0) ∧
      answer w' (.getType k') m = .ok (.type .int) ∧
      answer w' (.numElements k') m = .ok (.code 1) := by
  have hlt : m < s.length := (List.getElem?_eq_some_iff.mp hm).1
  have hl : Spec.look s m = .ok d := by unfold Spec.look; rw [hm]; rfl
  have hst : Spec.step s (.setInt m k i 0) =
      .ok (Spec.upd s m (some (d.put "_Range" (some (.int, [.int (Spec.trans k i)])))), .code 0) := by
    have hok : Spec.KeyOk "_Range" = true := by decide
    simp only [Spec.step, canon_range hk, Spec.setter, hl, Spec.setVal, hok]
    rfl
  obtain ⟨w', h1, h2⟩ := h.snoc hst
  have hd' : dictOf w' m = some (d.put "_Range" (some (.int, [.int (Spec.trans k i)]))) := by
    rw [← h2.sim.dict]; simp [Spec.upd, hlt]
  refine ⟨w', h1, ?_, ?_, ?_⟩
  · rw [answer_eq h2.sim (r := .getInt k' 0 e) (fun _ _ => rfl), hd']
    simp [Spec.readInt, Spec.readAt, canon_range hk', Spec.Dict.put, herr, trans_across hk hk']
  · rw [answer_eq h2.sim (r := .getType k') (fun _ _ => rfl), hd']
    simp [canon_range hk', Spec.Dict.put]
  · rw [answer_eq h2.sim (r := .numElements k') (fun _ _ => rfl), hd']
    simp [canon_range hk', Spec.Dict.put]

example : ∃ w w' s, Leads [.create] w s ∧ step w (.setInt 0 "_ColorRange" 1 0) = .ok (w', .code 0) ∧
    answer w' (.getInt "_Range" 0 true) 0 = .ok (.int 0 0) :=
  ⟨_, _, _, ⟨_, rfl, rfl⟩, rfl, by decide⟩

/-- C04: values appended under either name read back under either name, and do not disturb the
values already there. -/
theorem C04_append (ops : List Op) (w : World) (s : Spec.State) (m : Nat) (d : Spec.Dict)
    (k k' : Key) (i : Int) (l : List Val) (h : Leads ops w s) (hm : s[m]? = some (some d))
    (herr : d.err = false) (hk : RangeName k) (hk' : RangeName k')
    (hg : d.get "_Range" = some (.int, l)) :
    ∃ w', step w (.setInt m k i 1) = .ok (w', .code 0) ∧
      answer w' (.getInt k' l.length true) m = .ok (.int (across k k' i) 0) ∧
      ∀ j : Nat, j < l.length →
        answer w' (.getInt k' j true) m = answer w (.getInt k' j true) m := by
  have hlt : m < s.length := (List.getElem?_eq_some_iff.mp hm).1
  have hl : Spec.look s m = .ok d := by unfold Spec.look; rw [hm]; rfl
  have hst : Spec.step s (.setInt m k i 1) =
      .ok (Spec.upd s m (some (d.put "_Range" (some (.int, l ++ [.int (Spec.trans k i)])))),
        .code 0) := by
    have hok : Spec.KeyOk "_Range" = true := by decide
    simp [Spec.step, canon_range hk, Spec.setter, hl, Spec.setVal, hok, hg]
  obtain ⟨w', h1, h2⟩ := h.snoc hst
  have hd : dictOf w m = some d := by rw [← h.sim.dict m, hm]; rfl
  have hd' : dictOf w' m = some (d.put "_Range" (some (.int, l ++ [.int (Spec.trans k i)]))) := by
    rw [← h2.sim.dict]; simp [Spec.upd, hlt]
  refine ⟨w', h1, ?_, ?_⟩
  · rw [answer_eq h2.sim (r := .getInt k' l.length true) (fun _ _ => rfl), hd']
    have : ¬ ((l.length : Int) < 0) := by omega
    simp [Spec.readInt, Spec.readAt, canon_range hk', Spec.Dict.put, herr, trans_across hk hk', this]
  · intro j hj
    rw [answer_eq h2.sim (r := .getInt k' j true) (fun _ _ => rfl), hd',
      answer_eq h.sim (r := .getInt k' j true) (fun _ _ => rfl), hd]
    simp only [Spec.readInt, Spec.readAt, canon_range hk', Spec.Dict.put, hg, if_true, Int.toNat_natCast]
    rw [List.getElem?_append_left hj]

example : ∃ w s d, Leads [.create, .setInt 0 "_Range" 1 0] w s ∧ s[0]? = some (some d) ∧
    d.err = false ∧ d.get "_Range" = some (.int, [.int 1]) :=
  ⟨_, _, _, ⟨_, rfl, rfl⟩, rfl, rfl, rfl⟩

theorem setIntArray_range {ops : List Op} {w : World} {s : Spec.State} {m : Nat} {d : Spec.Dict}
    {k : Key} {l : List Int} (h : Leads ops w s) (hm : s[m]? = some (some d)) (hk : RangeName k) :
    ∃ w' s', step w (.setIntArray m k l l.length) = .ok (w', .code 0) ∧ Sim w' s' ∧
      dictOf w' m = some (d.put "_Range" (some (.int, l.map fun i => .int (Spec.trans k i)))) := by
  have hlt : m < s.length := (List.getElem?_eq_some_iff.mp hm).1
  have hl : Spec.look s m = .ok d := by unfold Spec.look; rw [hm]; rfl
  have hst : Spec.step s (.setIntArray m k l l.length) =
      .ok (Spec.upd s m (some (d.put "_Range" (some (.int, l.map fun i => .int (Spec.trans k i))))),
        .code 0) := by
    have hok : Spec.KeyOk k = true := by rcases hk with rfl | rfl <;> decide
    have h0 : ¬ ((l.length : Int) < 0) := by omega
    simp [Spec.step, canon_range hk, Spec.setArray, hl, hok, h0]
  obtain ⟨w', h1, h2⟩ := h.snoc hst
  exact ⟨w', _, h1, h2.sim, by rw [← h2.sim.dict]; simp [Spec.upd, hlt]⟩

/-- C04: every element of an array written under either name reads back under either name. -/
theorem C04_array_write (ops : List Op) (w : World) (s : Spec.State) (m : Nat) (d : Spec.Dict)
    (k k' : Key) (l : List Int) (h : Leads ops w s) (hm : s[m]? = some (some d))
    (herr : d.err = false) (hk : RangeName k) (hk' : RangeName k') :
    ∃ w', step w (.setIntArray m k l l.length) = .ok (w', .code 0) ∧
      answer w' (.numElements k') m = .ok (.code l.length) ∧
      ∀ (j : Nat) (hj : j < l.length),
        answer w' (.getInt k' j true) m = .ok (.int (across k k' l[j]) 0) := by
  obtain ⟨w', s', h1, hs', hd'⟩ := setIntArray_range (l := l) h hm hk
  refine ⟨w', h1, ?_, ?_⟩
  · rw [answer_eq hs' (r := .numElements k') (fun _ _ => rfl), hd']
    simp [canon_range hk', Spec.Dict.put]
  · intro j hj
    rw [answer_eq hs' (r := .getInt k' j true) (fun _ _ => rfl), hd']
    have : ¬ ((j : Int) < 0) := by omega
    simp [Spec.readInt, Spec.readAt, canon_range hk', Spec.Dict.put, herr, trans_across hk hk', this, hj]

example : ∃ w w' s, Leads [.create] w s ∧
    step w (.setIntArray 0 "_ColorRange" [1, 0, 5] 3) = .ok (w', .code 0) ∧
    answer w' (.getInt "_Range" 1 true) 0 = .ok (.int 1 0) :=
  ⟨_, _, _, ⟨_, rfl, rfl⟩, rfl, by decide⟩

/-- C04, the part about whole array reads that holds: through `_Range` an array written under
either name reads back correctly.  Missing for the full property: reads through `_ColorRange`,
see `C04_array_read_exact` and `C04_array_read_refuted`. -/
theorem C04_array_read_partial (ops : List Op) (w : World) (s : Spec.State) (m : Nat) (d : Spec.Dict)
    (k : Key) (l : List Int) (h : Leads ops w s) (hm : s[m]? = some (some d))
    (herr : d.err = false) (hk : RangeName k) (hne : l ≠ []) :
    ∃ w', step w (.setIntArray m k l l.length) = .ok (w', .code 0) ∧
      answer w' (.getIntArray "_Range" true) m
        = .ok (.array (some (l.map fun i => .int (across k "_Range" i))) 0) := by
  obtain ⟨w', s', h1, hs', hd'⟩ := setIntArray_range (l := l) h hm hk
  refine ⟨w', h1, ?_⟩
  rw [answer_eq hs' (r := .getIntArray "_Range" true) (fun _ _ => rfl), hd']
  have hc : Spec.canon "_Range" = "_Range" := rfl
  obtain ⟨a, t, rfl⟩ := List.exists_cons_of_ne_nil hne
  simp only [Spec.readArray, Spec.readAt, hc, Spec.Dict.put, herr, if_true]
  have : ∀ x, Spec.trans k x = across k "_Range" x := by
    intro x; rw [← trans_across hk (.inr rfl)]; rfl
  simp [Spec.rangeArray, this]

/-- C04: a whole array read through `_ColorRange` is right exactly when the array is a single 0
or 1, or several values none of which is 0 or 1. -/
theorem C04_array_read_exact (ops : List Op) (w : World) (s : Spec.State) (m : Nat) (d : Spec.Dict)
    (k : Key) (l : List Int) (h : Leads ops w s) (hm : s[m]? = some (some d))
    (herr : d.err = false) (hk : RangeName k) (hne : l ≠ []) :
    ∃ w', step w (.setIntArray m k l l.length) = .ok (w', .code 0) ∧
      (answer w' (.getIntArray "_ColorRange" true) m
          = .ok (.array (some (l.map fun i => .int (across k "_ColorRange" i))) 0) ↔
        l = [0] ∨ l = [1] ∨ (l.length ≠ 1 ∧ ∀ i ∈ l, i ≠ 0 ∧ i ≠ 1)) := by
  obtain ⟨w', s', h1, hs', hd'⟩ := setIntArray_range (l := l) h hm hk
  refine ⟨w', h1, ?_⟩
  rw [answer_eq hs' (r := .getIntArray "_ColorRange" true) (fun _ _ => rfl), hd']
  have hc : Spec.canon "_ColorRange" = "_Range" := rfl
  obtain ⟨a, t, rfl⟩ := List.exists_cons_of_ne_nil hne
  simp only [Spec.readArray, Spec.readAt, hc, Spec.Dict.put, herr, if_true]
  have hac : ∀ x, across k "_ColorRange" x = Spec.flip (Spec.trans k x) := by
    intro x; rw [← trans_across hk (.inl rfl)]; rfl
  have hfl : ∀ x : Int, Spec.flip x = x ↔ x ≠ 0 ∧ x ≠ 1 := by
    intro x; unfold Spec.flip
    by_cases h0 : x = 0
    · simp [h0]
    · by_cases h1 : x = 1
      · simp [h1]
      · simp [h0, h1]
  have htr : ∀ x : Int, (Spec.trans k x ≠ 0 ∧ Spec.trans k x ≠ 1) ↔ (x ≠ 0 ∧ x ≠ 1) := by
    intro x; unfold Spec.trans Spec.flip
    by_cases h0 : x = 0
    · split <;> simp [h0]
    · by_cases h1 : x = 1
      · split <;> simp [h1]
      · split <;> simp [h0, h1]
  simp only [hac]
  cases t with
  | nil =>
    have hone : ∀ y : Int, (if Spec.flip y = 1 then (1 : Int) else 0) = Spec.flip y ↔ y = 0 ∨ y = 1 := by
      intro y; unfold Spec.flip
      by_cases h0 : y = 0
      · simp [h0]
      · by_cases h1 : y = 1
        · simp [h1]
        · simp [h0, h1]; omega
    have h01 : (Spec.trans k a = 0 ∨ Spec.trans k a = 1) ↔ (a = 0 ∨ a = 1) := by
      have := htr a
      omega
    simp [Spec.rangeArray, hone, h01]
  | cons b t =>
    have hmap : ∀ q : List Int, (q.map fun i => Val.int (Spec.trans k i)) =
        (q.map fun i => Val.int (Spec.flip (Spec.trans k i))) ↔ ∀ i ∈ q, i ≠ 0 ∧ i ≠ 1 := by
      intro q
      induction q with
      | nil => simp
      | cons x q ih =>
        simp only [List.map_cons, List.cons.injEq, Val.int.injEq, ih, List.mem_cons, forall_eq_or_imp]
        rw [eq_comm, hfl, htr]
    show Res.ok (Out.array (some ((a :: b :: t).map fun i => Val.int (Spec.trans k i))) 0)
      = Res.ok (Out.array (some ((a :: b :: t).map fun i => Val.int (Spec.flip (Spec.trans k i)))) 0)
      ↔ _
    rw [Res.ok.injEq, Out.array.injEq, Option.some.injEq, hmap]
    simp

example : ∃ w s d, Leads [.create, .setInt 0 "a" 3 0] w s ∧ s[0]? = some (some d) ∧ d.err = false ∧
    RangeName "_ColorRange" ∧ ([1, 0] : List Int) ≠ [] :=
  ⟨_, _, _, ⟨_, rfl, rfl⟩, rfl, rfl, .inl rfl, by decide⟩

/-- C04 does not hold for whole array reads: limited range written as `_ColorRange` in a two
element array comes back as full range, and a single reserved value comes back as 0. -/
theorem C04_array_read_refuted :
    (∃ w os, run World.empty [.create, .setIntArray 0 "_ColorRange" [1, 1] 2] = .ok (w, os) ∧
      answer w (.getIntArray "_ColorRange" true) 0 = .ok (.array (some [.int 0, .int 0]) 0)) ∧
    (∃ w os, run World.empty [.create, .setIntArray 0 "_ColorRange" [2] 1] = .ok (w, os) ∧
      answer w (.getIntArray "_ColorRange" true) 0 = .ok (.array (some [.int 0]) 0)) :=
  ⟨⟨_, _, rfl, by decide⟩, ⟨_, _, rfl, by decide⟩⟩

/-- The alias covers the type and size queries but not the float and data accessors: a float
stored under `_ColorRange` can be read but has, according to the queries, no elements and no
type.  (So `_ColorRange` is not an ordinary key for other types than integers.) -/
theorem C04_float_metadata_mismatch :
    ∃ w os, run World.empty [.create, .setFloat 0 "_ColorRange" 9 0] = .ok (w, os) ∧
      answer w (.getFloat "_ColorRange" 0 true) 0 = .ok (.float 9 0) ∧
      answer w (.numElements "_ColorRange") 0 = .ok (.code (-1)) ∧
      answer w (.getType "_ColorRange") 0 = .ok (.type .unset) :=
  ⟨_, _, rfl, by decide, by decide, by decide⟩

end VS.Map
