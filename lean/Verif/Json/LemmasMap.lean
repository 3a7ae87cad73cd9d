import Verif.Map.PropsRead
import Verif.Json.LemmasValue

/-!
# The text of a property map
-/

namespace VS.Json
open VS VS.Map

/-! ## What the calls used return -/

theorem retRead_ok {α : Type} {w w' : World} {f : α → Out} {r : Res α} {o : Out} (h : retRead w f r = .ok (w', o)) :
    ∃ a, r = .ok a ∧ f a = o := by
  unfold retRead at h
  cases r with
  | ok a => injection h with h; injection h with _ h; exact ⟨a, rfl, h⟩
  | err e => cases h
  | fatal e => cases h
  | ub => cases h

theorem reading_ok {s : Spec.State} {m : Nat} {d : Spec.Dict} (hm : s[m]? = some (some d)) {f : Spec.Dict → Res Out} {o : Out}
    (h : f d = .ok o) : Spec.reading s m f = .ok (s, o) := by
  unfold Spec.reading Spec.look
  rw [hm]
  simp [h]

theorem numElements_eq {w : World} {s : Spec.State} (h : Sim w s) {m : Nat} {d : Spec.Dict} (hm : s[m]? = some (some d))
    (k : Key) (hk : k ≠ "_ColorRange") {ty : PType} {l : List Val} (hg : d.get k = some (ty, l)) :
    mapNumElements w m k = .ok l.length := by
  have hc : Spec.canon k = k := by unfold Spec.canon; rw [if_neg hk]
  obtain ⟨w', h1, -⟩ := spec_step_ok h (op := .numElements m k) (reading_ok hm rfl)
  obtain ⟨a, h2, h3⟩ := retRead_ok h1
  rw [h2]
  rw [hc, hg] at h3
  injection h3 with h3
  rw [h3]

theorem getType_eq {w : World} {s : Spec.State} (h : Sim w s) {m : Nat} {d : Spec.Dict} (hm : s[m]? = some (some d))
    (k : Key) (hk : k ≠ "_ColorRange") {ty : PType} {l : List Val} (hg : d.get k = some (ty, l)) :
    mapGetType w m k = .ok ty := by
  have hc : Spec.canon k = k := by unfold Spec.canon; rw [if_neg hk]
  obtain ⟨w', h1, -⟩ := spec_step_ok h (op := .getType m k) (reading_ok hm rfl)
  obtain ⟨a, h2, h3⟩ := retRead_ok h1
  rw [h2]
  rw [hc, hg] at h3
  injection h3 with h3
  rw [h3]

theorem readAt_ok {d : Spec.Dict} (he : d.err = false) {k : Key} {ty : PType} {l : List Val} (hg : d.get k = some (ty, l))
    {j : Nat} {v : Val} (hv : l[j]? = some v) : Spec.readAt d k j ty = .inr v := by
  unfold Spec.readAt
  rw [if_neg (by rw [he]; decide), hg]
  have hj : ¬ ((j : Int) < 0) := by omega
  simp only [if_neg hj, Int.toNat_natCast, hv, if_true]

theorem getInt_eq {w : World} {s : Spec.State} (h : Sim w s) {m : Nat} {d : Spec.Dict} (hm : s[m]? = some (some d))
    (he : d.err = false) (k : Key) (hk : k ≠ "_ColorRange") {l : List Val} (hg : d.get k = some (.int, l))
    {j : Nat} {i : Int} (hv : l[j]? = some (.int i)) : ∃ e, mapGetInt w m k j false = .ok (i, e) := by
  have hc : Spec.canon k = k := by unfold Spec.canon; rw [if_neg hk]
  have ht : Spec.trans k i = i := by unfold Spec.trans; rw [if_neg hk]
  have hr : Spec.readInt d k j false = .ok (.int i 0) := by
    unfold Spec.readInt; rw [hc, readAt_ok he hg hv]; simp only [ht]
  obtain ⟨w', h1, -⟩ := spec_step_ok h (op := .getInt m k j false) (reading_ok hm hr)
  obtain ⟨⟨a, e⟩, h2, h3⟩ := retRead_ok h1
  injection h3 with h3 _
  exact ⟨e, by rw [h2]; simp only at h3; rw [h3]⟩

theorem getFloat_eq {w : World} {s : Spec.State} (h : Sim w s) {m : Nat} {d : Spec.Dict} (hm : s[m]? = some (some d))
    (he : d.err = false) (k : Key) {l : List Val} (hg : d.get k = some (.float, l))
    {j : Nat} {i : Nat} (hv : l[j]? = some (.float i)) : ∃ e, mapGetFloat w m k j false = .ok (i, e) := by
  have hr : Spec.readFloat d k j false = .ok (.float i 0) := by
    unfold Spec.readFloat; rw [readAt_ok he hg hv]
  obtain ⟨w', h1, -⟩ := spec_step_ok h (op := .getFloat m k j false) (reading_ok hm hr)
  obtain ⟨⟨a, e⟩, h2, h3⟩ := retRead_ok h1
  injection h3 with h3 _
  exact ⟨e, by rw [h2]; simp only at h3; rw [h3]⟩

theorem getData_eq {w : World} {s : Spec.State} (h : Sim w s) {m : Nat} {d : Spec.Dict} (hm : s[m]? = some (some d))
    (he : d.err = false) (k : Key) {l : List Val} (hg : d.get k = some (.data, l))
    {j : Nat} {t : Int} {b : List Nat} (hv : l[j]? = some (.data t b)) :
    ∃ e, mapGetData w m k j false = .ok (some (t, b), e) := by
  have hr : Spec.readData d k j false = .ok (.data (some (t, b)) 0) := by
    unfold Spec.readData; rw [readAt_ok he hg hv]
  obtain ⟨w', h1, -⟩ := spec_step_ok h (op := .getData m k j false) (reading_ok hm hr)
  obtain ⟨⟨a, e⟩, h2, h3⟩ := retRead_ok h1
  injection h3 with h3 _
  exact ⟨e, by rw [h2]; simp only at h3; rw [h3]⟩

/-! ## The texts -/

/-- The text of a value. -/
def valText (fixed : Nat → List Nat) : Val → List Nat
  | .int i => decimal i
  | .float b => fixed b
  | .data h b => dataText h b
  | .obj _ => []

/-- Can it be written? -/
def Writable (fixed : Nat → List Nat) : Val → Prop
  | .int _ | .data _ _ => True
  | .float b => (fixed b).length ≤ 100
  | .obj _ => False

theorem elemText_eq {fixed : Nat → List Nat} {w : World} {s : Spec.State} (h : Sim w s) {m : Nat} {d : Spec.Dict}
    (hm : s[m]? = some (some d)) (he : d.err = false) (k : Key) (hk : k ≠ "_ColorRange") {ty : PType} {l : List Val}
    (hg : d.get k = some (ty, l)) {j : Nat} {v : Val} (hv : l[j]? = some v) (hw : Writable fixed v) :
    elemText fixed w m k ty j = .ok (valText fixed v) := by
  have hf := dict_fits h hm hg v (List.mem_of_getElem? hv)
  cases v with
  | int i =>
    cases ty <;> simp only [Spec.Fits] at hf
    obtain ⟨e, h1⟩ := getInt_eq h hm he k hk hg hv
    simp [elemText, h1, valText]
  | float b =>
    cases ty <;> simp only [Spec.Fits] at hf
    obtain ⟨e, h1⟩ := getFloat_eq h hm he k hg hv
    simp only [elemText, h1, Res.bind_ok, valText, doubleToString]
    rw [if_pos (show (fixed b).length ≤ 100 from hw)]
  | data t b =>
    cases ty <;> simp only [Spec.Fits] at hf
    obtain ⟨e, h1⟩ := getData_eq h hm he k hg hv
    simp [elemText, h1, valText]
  | obj p => exact absurd hw (by simp [Writable])

theorem elemsText_eq {fixed : Nat → List Nat} {w : World} {s : Spec.State} (h : Sim w s) {m : Nat} {d : Spec.Dict}
    (hm : s[m]? = some (some d)) (he : d.err = false) (k : Key) (hk : k ≠ "_ColorRange") {ty : PType} {l : List Val}
    (hg : d.get k = some (ty, l)) (hw : ∀ v ∈ l, Writable fixed v) : ∀ (q p : List Val), l = p ++ q →
    elemsText fixed w m k ty p.length q.length =
      .ok (if p = [] then join (q.map (valText fixed)) else commas (q.map (valText fixed))) := by
  intro q
  induction q with
  | nil => intro p _; simp [elemsText, join, commas]
  | cons v q ih =>
    intro p hl
    have hv : l[p.length]? = some v := by rw [hl]; simp
    have hvm : v ∈ l := by rw [hl]; simp
    rw [List.length_cons, elemsText, elemText_eq h hm he k hk hg hv (hw v hvm), Res.bind_ok]
    have := ih (p ++ [v]) (by rw [hl]; simp)
    rw [List.length_append, List.length_singleton] at this
    rw [this, Res.bind_ok]
    rw [if_neg (show ¬ (p ++ [v] = []) by simp)]
    by_cases hp : p = []
    · subst hp; simp [join]
    · have : p.length ≠ 0 := by simpa using hp
      rw [if_neg hp, if_neg this]
      simp [commas]

/-- The text of an entry. -/
def entryText (fixed : Nat → List Nat) : List Val → List Nat
  | [] => asc "null"
  | [v] => valText fixed v
  | l => asc "[" ++ join (l.map (valText fixed)) ++ asc "]"

theorem valueText_eq {fixed : Nat → List Nat} {w : World} {s : Spec.State} (h : Sim w s) {m : Nat} {d : Spec.Dict}
    (hm : s[m]? = some (some d)) (he : d.err = false) (k : Key) (hk : k ≠ "_ColorRange") {ty : PType} {l : List Val}
    (hg : d.get k = some (ty, l)) (hw : ∀ v ∈ l, Writable fixed v) :
    valueText fixed w m k = .ok (entryText fixed l) := by
  unfold valueText
  rw [numElements_eq h hm k hk hg, Res.bind_ok]
  cases l with
  | nil => rfl
  | cons v l =>
    rw [if_neg (by simp; omega), getType_eq h hm k hk hg, Res.bind_ok]
    have hf := dict_fits h hm hg v (by simp)
    have hwv := hw v (by simp)
    have hs : switchText fixed w m k ty (((v :: l).length : Nat) : Int).toNat = elemsText fixed w m k ty 0 (v :: l).length := by
      rw [Int.toNat_natCast]
      unfold switchText
      cases ty <;> first | rfl | (cases v <;> simp [Spec.Fits, Writable] at hf hwv)
    have := elemsText_eq h hm he k hk hg hw (v :: l) [] rfl
    rw [List.length_nil] at this
    rw [hs, this, Res.bind_ok, if_pos rfl]
    cases l with
    | nil => simp [entryText, join, commas]
    | cons u l =>
      rw [if_pos (by simp; omega)]
      rfl

theorem keysText_eq {fixed : Nat → List Nat} {w : World} {m : Nat} (ks : List Key) (f : Key → List Nat)
    (hkey : ∀ i : Nat, mapGetKey w m i = .ok ks[i]?) (hval : ∀ k ∈ ks, valueText fixed w m k = .ok (f k)) :
    ∀ (q p : List Key), ks = p ++ q →
    keysText fixed w m p.length q.length =
      .ok (if p = [] then join (q.map (fun k => memberText (keyBytes k) (f k)))
        else commas (q.map (fun k => memberText (keyBytes k) (f k)))) := by
  intro q
  induction q with
  | nil => intro p _; simp [keysText, join, commas]
  | cons k q ih =>
    intro p hl
    have hv : ks[p.length]? = some k := by rw [hl]; simp
    have hkm : k ∈ ks := by rw [hl]; simp
    rw [List.length_cons, keysText, hkey, hv, Res.bind_ok]
    simp only
    rw [hval k hkm, Res.bind_ok]
    have := ih (p ++ [k]) (by rw [hl]; simp)
    rw [List.length_append, List.length_singleton] at this
    rw [this, Res.bind_ok, if_neg (show ¬ (p ++ [k] = []) by simp)]
    by_cases hp : p = []
    · subst hp; simp [join, memberText]
    · have : p.length ≠ 0 := by simpa using hp
      rw [if_neg hp, if_neg this]
      simp [commas, memberText]

end VS.Json
