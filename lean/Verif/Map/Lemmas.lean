import Verif.Map.Spec

/-!
# Reference counting invariant of the map model

`Wf w ea es`: every reference count equals the number of pointers held inside the world plus the
number of pointers held by the call in progress (`ea` for arrays, `es` for storages).
-/

namespace VS.Map
open VS

/-! ## Association lists -/

/-- Number of entries pointing to an array. -/
def refsIn (l : List (Key × Nat)) (a : Nat) : Nat := (l.map (·.2)).count a

/-- Keys in strictly increasing order. -/
def Sorted (l : List (Key × Nat)) : Prop := l.Pairwise fun x y => x.1 < y.1

theorem key_ne_of_lt {a b : Key} (h : a < b) : a ≠ b := by
  intro e; subst e; exact String.lt_irrefl a h

theorem key_tri {a b : Key} (h1 : ¬ a < b) (h2 : ¬ b = a) : b < a := by
  refine Classical.byContradiction fun h3 => h2 ?_
  exact String.le_antisymm (String.not_lt.mp h1) (String.not_lt.mp h3)

theorem find_none_of_lt {l : List (Key × Nat)} {k : Key} (h : ∀ e ∈ l, k < e.1) :
    find l k = none := by
  induction l with
  | nil => rfl
  | cons e t ih =>
    obtain ⟨k', a⟩ := e
    have h1 : k < k' := h (k', a) (by simp)
    simp only [find]
    rw [if_neg (fun e => key_ne_of_lt h1 e.symm)]
    exact ih fun e he => h e (by simp [he])

theorem find_mem {l : List (Key × Nat)} {k : Key} {a : Nat} (h : find l k = some a) :
    (k, a) ∈ l := by
  induction l with
  | nil => simp [find] at h
  | cons e t ih =>
    obtain ⟨k', a'⟩ := e
    simp only [find] at h
    by_cases hk : k' = k
    · simp [hk] at h; subst h; subst hk; simp
    · simp [hk] at h; simp [ih h]

theorem find_of_mem {l : List (Key × Nat)} {k : Key} {a : Nat} (hs : Sorted l) (h : (k, a) ∈ l) :
    find l k = some a := by
  induction l with
  | nil => simp at h
  | cons e t ih =>
    obtain ⟨k', a'⟩ := e
    have hs' := List.pairwise_cons.mp hs
    simp only [find]
    rcases List.mem_cons.mp h with h | h
    · simp at h; simp [h.1, h.2]
    · have : k' < k := hs'.1 (k, a) h
      rw [if_neg (key_ne_of_lt this)]
      exact ih hs'.2 h

theorem find_upsert {l : List (Key × Nat)} (hs : Sorted l) (k : Key) (a : Nat) (k' : Key) :
    find (upsert k a l) k' = if k' = k then some a else find l k' := by
  induction l with
  | nil =>
    simp only [upsert, find]
    by_cases h : k = k'
    · simp [h]
    · simp [h, Ne.symm h]
  | cons e t ih =>
    obtain ⟨k1, a1⟩ := e
    have hs' := List.pairwise_cons.mp hs
    simp only [upsert]
    by_cases h1 : k < k1
    · rw [if_pos h1]
      simp only [find]
      by_cases h : k = k'
      · simp [h]
      · simp [h, Ne.symm h]
    · rw [if_neg h1]
      by_cases h2 : k1 = k
      · rw [if_pos h2]
        subst h2
        simp only [find]
        by_cases h : k1 = k'
        · simp [h]
        · simp [h, Ne.symm h]
      · rw [if_neg h2]
        simp only [find]
        by_cases h : k1 = k'
        · subst h; simp [h2]
        · simp [h]; exact ih hs'.2

theorem find_eraseKey {l : List (Key × Nat)} (hs : Sorted l) (k k' : Key) :
    find (eraseKey k l) k' = if k' = k then none else find l k' := by
  induction l with
  | nil => simp [eraseKey, find]
  | cons e t ih =>
    obtain ⟨k1, a1⟩ := e
    have hs' := List.pairwise_cons.mp hs
    simp only [eraseKey]
    by_cases h2 : k1 = k
    · rw [if_pos h2]
      subst h2
      by_cases h : k' = k1
      · rw [if_pos h, h]
        exact find_none_of_lt fun e he => hs'.1 e he
      · rw [if_neg h]
        simp [find, Ne.symm h]
    · rw [if_neg h2]
      simp only [find]
      by_cases h : k1 = k'
      · subst h; simp [h2]
      · simp [h]; exact ih hs'.2

theorem mem_upsert {l : List (Key × Nat)} {k : Key} {a : Nat} {e : Key × Nat}
    (h : e ∈ upsert k a l) : e = (k, a) ∨ e ∈ l := by
  induction l with
  | nil => simp [upsert] at h; exact .inl h
  | cons x t ih =>
    obtain ⟨k1, a1⟩ := x
    simp only [upsert] at h
    by_cases h1 : k < k1
    · rw [if_pos h1] at h; simpa using h
    · rw [if_neg h1] at h
      by_cases h2 : k1 = k
      · rw [if_pos h2] at h
        rcases List.mem_cons.mp h with h | h
        · exact .inl h
        · exact .inr (by simp [h])
      · rw [if_neg h2] at h
        rcases List.mem_cons.mp h with h | h
        · exact .inr (by simp [h])
        · rcases ih h with h | h
          · exact .inl h
          · exact .inr (by simp [h])

theorem mem_eraseKey {l : List (Key × Nat)} {k : Key} {e : Key × Nat}
    (h : e ∈ eraseKey k l) : e ∈ l := by
  induction l with
  | nil => simp [eraseKey] at h
  | cons x t ih =>
    obtain ⟨k1, a1⟩ := x
    simp only [eraseKey] at h
    by_cases h2 : k1 = k
    · rw [if_pos h2] at h; simp [h]
    · rw [if_neg h2] at h
      rcases List.mem_cons.mp h with h | h
      · simp [h]
      · simp [ih h]

theorem sorted_upsert {l : List (Key × Nat)} (hs : Sorted l) (k : Key) (a : Nat) :
    Sorted (upsert k a l) := by
  induction l with
  | nil => simp [upsert, Sorted]
  | cons x t ih =>
    obtain ⟨k1, a1⟩ := x
    have hs' := List.pairwise_cons.mp hs
    simp only [upsert]
    by_cases h1 : k < k1
    · rw [if_pos h1]
      refine List.pairwise_cons.mpr ⟨?_, hs⟩
      intro e he
      rcases List.mem_cons.mp he with he | he
      · simpa [he] using h1
      · exact String.lt_trans h1 (hs'.1 e he)
    · rw [if_neg h1]
      by_cases h2 : k1 = k
      · rw [if_pos h2]
        subst h2
        exact List.pairwise_cons.mpr ⟨hs'.1, hs'.2⟩
      · rw [if_neg h2]
        refine List.pairwise_cons.mpr ⟨?_, ih hs'.2⟩
        intro e he
        rcases mem_upsert he with he | he
        · simpa [he] using key_tri h1 h2
        · exact hs'.1 e he

theorem sorted_eraseKey {l : List (Key × Nat)} (hs : Sorted l) (k : Key) :
    Sorted (eraseKey k l) := by
  induction l with
  | nil => simp [eraseKey, Sorted]
  | cons x t ih =>
    obtain ⟨k1, a1⟩ := x
    have hs' := List.pairwise_cons.mp hs
    simp only [eraseKey]
    by_cases h2 : k1 = k
    · rw [if_pos h2]; exact hs'.2
    · rw [if_neg h2]
      exact List.pairwise_cons.mpr ⟨fun e he => hs'.1 e (mem_eraseKey he), ih hs'.2⟩

theorem refsIn_cons (k : Key) (a : Nat) (l : List (Key × Nat)) (b : Nat) :
    refsIn ((k, a) :: l) b = refsIn l b + if a = b then 1 else 0 := by
  simp only [refsIn, List.map_cons, List.count_cons, beq_iff_eq]

theorem refsIn_eraseKey {l : List (Key × Nat)} {k : Key} {old : Nat} (h : find l k = some old)
    (b : Nat) : refsIn (eraseKey k l) b + (if old = b then 1 else 0) = refsIn l b := by
  induction l with
  | nil => simp [find] at h
  | cons x t ih =>
    obtain ⟨k1, a1⟩ := x
    simp only [find] at h
    simp only [eraseKey]
    by_cases h2 : k1 = k
    · rw [if_pos h2] at h; simp at h; subst h
      rw [if_pos h2, refsIn_cons]
    · rw [if_neg h2] at h; rw [if_neg h2, refsIn_cons, refsIn_cons]
      have := ih h; omega

theorem refsIn_upsert_old {l : List (Key × Nat)} {k : Key} {old : Nat} (hs : Sorted l)
    (h : find l k = some old) (a b : Nat) :
    refsIn (upsert k a l) b + (if old = b then 1 else 0)
      = refsIn l b + (if a = b then 1 else 0) := by
  induction l with
  | nil => simp [find] at h
  | cons x t ih =>
    obtain ⟨k1, a1⟩ := x
    have hs' := List.pairwise_cons.mp hs
    simp only [upsert]
    by_cases h1 : k < k1
    · exfalso
      have : find ((k1, a1) :: t) k = none := find_none_of_lt fun e he => by
        rcases List.mem_cons.mp he with he | he
        · simpa [he] using h1
        · exact String.lt_trans h1 (hs'.1 e he)
      rw [this] at h; simp at h
    · rw [if_neg h1]
      simp only [find] at h
      by_cases h2 : k1 = k
      · rw [if_pos h2] at h; simp at h; subst h
        rw [if_pos h2, refsIn_cons, refsIn_cons]; omega
      · rw [if_neg h2] at h
        rw [if_neg h2, refsIn_cons, refsIn_cons]
        have := ih hs'.2 h; omega

theorem refsIn_upsert_new {l : List (Key × Nat)} {k : Key} (h : find l k = none) (a b : Nat) :
    refsIn (upsert k a l) b = refsIn l b + (if a = b then 1 else 0) := by
  induction l with
  | nil => simp only [upsert, refsIn_cons]
  | cons x t ih =>
    obtain ⟨k1, a1⟩ := x
    simp only [find] at h
    have h2 : ¬ k1 = k := fun e => by simp [e] at h
    rw [if_neg h2] at h
    simp only [upsert]
    by_cases h1 : k < k1
    · rw [if_pos h1, refsIn_cons, refsIn_cons]
    · rw [if_neg h1, if_neg h2, refsIn_cons, refsIn_cons]
      have := ih h; omega

theorem refsIn_pos_of_mem {l : List (Key × Nat)} {e : Key × Nat} (h : e ∈ l) :
    0 < refsIn l e.2 := by
  unfold refsIn
  exact List.count_pos_iff.mpr (List.mem_map.mpr ⟨e, h, rfl⟩)

theorem mem_of_refsIn_pos {l : List (Key × Nat)} {a : Nat} (h : 0 < refsIn l a) :
    ∃ k, (k, a) ∈ l := by
  unfold refsIn at h
  obtain ⟨e, he, h2⟩ := List.mem_map.mp (List.count_pos_iff.mp h)
  exact ⟨e.1, by rw [← h2]; exact he⟩

/-! ## Arrays -/

/-- The elements of an array. -/
def contents (x : Arr) : List Val := if x.fsize = 1 then x.single.toList else x.data

/-- What a key pointing to this array maps to. -/
def entry (x : Arr) : Spec.Entry := (x.ty, contents x)

/-- The representation invariant of an array. -/
structure ArrOk (x : Arr) : Prop where
  len : (contents x).length = x.fsize
  small : x.fsize ≤ 1 → x.data = []
  fits : ∀ v ∈ contents x, Spec.Fits x.ty v

theorem arrOk_new (ty : PType) : ArrOk (Arr.new ty) := by
  constructor <;> simp [Arr.new, contents]

theorem entry_new (ty : PType) : entry (Arr.new ty) = (ty, []) := by
  simp [Arr.new, entry, contents]

theorem contents_ofList (ty : PType) (l : List Val) : contents (Arr.ofList ty l) = l := by
  unfold Arr.ofList contents
  by_cases h : l.length = 1
  · obtain ⟨v, rfl⟩ := List.length_eq_one_iff.mp h; simp
  · simp [h]

theorem arrOk_ofList (ty : PType) (l : List Val) (hf : ∀ v ∈ l, Spec.Fits ty v) :
    ArrOk (Arr.ofList ty l) := by
  constructor
  · rw [contents_ofList]; rfl
  · intro h
    simp only [Arr.ofList] at h ⊢
    by_cases h1 : l.length = 1
    · simp [h1]
    · simp [h1]; exact List.length_eq_zero_iff.mp (by omega)
  · rw [contents_ofList]; exact hf

theorem entry_ofList (ty : PType) (l : List Val) : entry (Arr.ofList ty l) = (ty, l) := by
  unfold entry; rw [contents_ofList]; rfl

theorem contents_copy {x : Arr} (h : ArrOk x) : contents x.copy = contents x := by
  unfold Arr.copy contents
  by_cases h1 : x.fsize = 1
  · simp [h1]
  · by_cases h2 : x.fsize > 1
    · simp [h1, h2]
    · simp [h1, h2]; exact h.small (by omega)

theorem entry_copy {x : Arr} (h : ArrOk x) : entry x.copy = entry x := by
  unfold entry; rw [contents_copy h]; rfl

theorem arrOk_copy {x : Arr} (h : ArrOk x) : ArrOk x.copy := by
  refine ⟨?_, ?_, ?_⟩
  · rw [contents_copy h]; exact h.len
  · intro hl
    simp only [Arr.copy] at hl ⊢
    rw [if_neg (by omega)]
  · rw [contents_copy h]; exact h.fits

theorem push_ok {x : Arr} (h : ArrOk x) (v : Val) (hf : Spec.Fits x.ty v) :
    ∃ y, x.push v = .ok y ∧ y.rc = x.rc ∧ y.ty = x.ty ∧ contents y = contents x ++ [v] ∧
      ArrOk y := by
  have hl := h.len
  have hfit : ∀ u ∈ contents x ++ [v], Spec.Fits x.ty u := by
    intro u hu
    rcases List.mem_append.mp hu with hu | hu
    · exact h.fits u hu
    · simp at hu; subst hu; exact hf
  unfold Arr.push
  by_cases h0 : x.fsize = 0
  · have hd := h.small (by omega)
    have hc : contents x = [] := by unfold contents; simp [h0, hd]
    rw [hc] at hfit
    refine ⟨{ x with single := some v, fsize := 1 }, by simp [h0], rfl, rfl, ?_, ?_⟩
    · rw [hc]; simp [contents]
    · refine ⟨by simp [contents], fun _ => hd, ?_⟩
      simpa [contents] using hfit
  · by_cases h1 : x.fsize = 1
    · have hd := h.small (by omega)
      unfold contents at hl hfit
      rw [if_pos h1] at hl hfit
      cases hs : x.single with
      | none => rw [hs, h1] at hl; simp at hl
      | some s =>
        rw [hs] at hfit
        refine ⟨{ x with data := x.data ++ [s, v], single := none, fsize := 2 }, by simp [h1],
          rfl, rfl, ?_, ?_⟩
        · simp [contents, h1, hd, hs]
        · refine ⟨by simp [contents, hd], by simp, ?_⟩
          simp [contents, hd]
          simpa using hfit
    · refine ⟨{ x with data := x.data ++ [v], fsize := x.fsize + 1 }, by simp [h0, h1], rfl, rfl,
        ?_, ?_⟩
      · simp [contents, h0, h1]
      · unfold contents at hl hfit
        rw [if_neg h1] at hl hfit
        refine ⟨?_, fun hc => ?_, ?_⟩
        · simp [contents, h0, hl]
        · simp at hc; omega
        · simp only [contents]
          rw [if_neg (by simp; omega)]
          exact hfit

theorem at_ok {x : Arr} (h : ArrOk x) {i : Nat} {v : Val} (hv : (contents x)[i]? = some v) :
    x.at i = .ok v := by
  have hl := h.len
  unfold Arr.at
  unfold contents at hv hl
  by_cases h1 : x.fsize = 1
  · rw [if_pos h1] at hv hl ⊢
    cases hs : x.single with
    | none => rw [hs] at hv; simp at hv
    | some s =>
      rw [hs] at hv
      cases i with
      | zero => simp at hv; simp [hv]
      | succ i => simp at hv
  · rw [if_neg h1] at hv ⊢; simp [hv]

theorem dataPointer_ok {x : Arr} (h : ArrOk x) : x.dataPointer = .ok (contents x) := by
  have hl := h.len
  unfold Arr.dataPointer
  unfold contents at hl ⊢
  by_cases h1 : x.fsize = 1
  · rw [if_pos h1] at hl ⊢
    cases hs : x.single with
    | none => rw [hs, h1] at hl; simp at hl
    | some s => simp [h1]
  · simp [h1]

/-! ## The invariant -/

/-- Number of maps pointing to a storage. -/
def mrefs (w : World) (s : Nat) : Nat := w.maps.sumOver fun s' => if s' = s then 1 else 0

/-- Number of storage entries pointing to an array. -/
def arefs (w : World) (a : Nat) : Nat := w.stos.sumOver fun st => refsIn st.data a

/-- Consistency of all objects while the call in progress holds `ea`/`es` extra references. -/
structure Wf (w : World) (ea es : Nat → Nat) : Prop where
  mapLive : ∀ m s, w.maps.get m = some s → ∃ st, w.stos.get s = some st
  stoRc : ∀ s st, w.stos.get s = some st → st.rc = mrefs w s + es s ∧ 0 < st.rc
  sorted : ∀ s st, w.stos.get s = some st → Sorted st.data
  entLive : ∀ s st, w.stos.get s = some st → ∀ e ∈ st.data, ∃ x, w.arrs.get e.2 = some x
  arrRc : ∀ a x, w.arrs.get a = some x → x.rc = arefs w a + ea a ∧ 0 < x.rc
  arrOk : ∀ a x, w.arrs.get a = some x → ArrOk x
  eaLive : ∀ a, 0 < ea a → ∃ x, w.arrs.get a = some x
  esLive : ∀ s, 0 < es s → ∃ st, w.stos.get s = some st

/-- No extra references. -/
def none0 : Nat → Nat := fun _ => 0

theorem wf_empty : Wf World.empty none0 none0 := by
  constructor <;> simp [World.empty, Heap.get, none0]

/-- `w'` continues `w`: no object came back to life, arrays kept their elements, and storages
other than `S` kept their entries. -/
structure Ext (w w' : World) (S : Option Nat) : Prop where
  alen : w.arrs.length ≤ w'.arrs.length
  slen : w.stos.length ≤ w'.stos.length
  arr : ∀ a x', a < w.arrs.length → w'.arrs.get a = some x' →
    ∃ x, w.arrs.get a = some x ∧ entry x = entry x'
  sto : ∀ s st', s < w.stos.length → S ≠ some s → w'.stos.get s = some st' →
    ∃ st, w.stos.get s = some st ∧ st.data = st'.data ∧ st.error = st'.error

theorem Ext.refl (w : World) (S : Option Nat) : Ext w w S :=
  ⟨Nat.le_refl _, Nat.le_refl _, fun _ x' _ h => ⟨x', h, rfl⟩, fun _ st' _ _ h => ⟨st', h, rfl, rfl⟩⟩

theorem Ext.weaken {w w' : World} {S : Option Nat} (h : Ext w w' none) : Ext w w' S :=
  ⟨h.alen, h.slen, h.arr, fun s st' hl _ h' => h.sto s st' hl (by simp) h'⟩

theorem Ext.trans {w w' w'' : World} {S : Option Nat} (h1 : Ext w w' S) (h2 : Ext w' w'' S) :
    Ext w w'' S := by
  refine ⟨Nat.le_trans h1.alen h2.alen, Nat.le_trans h1.slen h2.slen, ?_, ?_⟩
  · intro a x'' hl hx
    obtain ⟨x', hx', e1⟩ := h2.arr a x'' (Nat.lt_of_lt_of_le hl h1.alen) hx
    obtain ⟨x, hx, e2⟩ := h1.arr a x' hl hx'
    exact ⟨x, hx, e2.trans e1⟩
  · intro s st'' hl hS hx
    obtain ⟨x', hx', e1, e1'⟩ := h2.sto s st'' (Nat.lt_of_lt_of_le hl h1.slen) hS hx
    obtain ⟨x, hx, e2, e2'⟩ := h1.sto s x' hl hS hx'
    exact ⟨x, hx, e2.trans e1, e2'.trans e1'⟩

/-! ## Elementary steps -/

theorem addRefArr_wf {w : World} {ea es : Nat → Nat} (hw : Wf w ea es) {a : Nat}
    (ha : ∃ x, w.arrs.get a = some x) :
    ∃ w', addRefArr w a = .ok w' ∧ Wf w' (fun b => ea b + if a = b then 1 else 0) es ∧
      Ext w w' none ∧ w'.maps = w.maps ∧ w'.stos = w.stos := by
  obtain ⟨x, hx⟩ := ha
  have hl := Heap.get_lt hx
  refine ⟨{ w with arrs := w.arrs.put a (some { x with rc := x.rc + 1 }) }, by simp [addRefArr, hx],
    ?_, ?_, rfl, rfl⟩
  · have key : ∀ b y, (w.arrs.put a (some { x with rc := x.rc + 1 })).get b = some y →
        ∃ y0, w.arrs.get b = some y0 ∧ y.rc = y0.rc + (if a = b then 1 else 0) ∧
          (ArrOk y0 → ArrOk y) := by
      intro b y hy
      by_cases hab : a = b
      · subst hab
        rw [Heap.get_put_self _ hl] at hy
        simp at hy; subst hy
        exact ⟨x, hx, by simp, fun h => ⟨h.len, h.small, h.fits⟩⟩
      · rw [Heap.get_put_ne _ hab] at hy
        exact ⟨y, hy, by simp [hab], id⟩
    have live : ∀ b, (∃ y, w.arrs.get b = some y) →
        ∃ y, (w.arrs.put a (some { x with rc := x.rc + 1 })).get b = some y := by
      intro b ⟨y, hy⟩
      by_cases hab : a = b
      · subst hab; exact ⟨_, Heap.get_put_self _ hl⟩
      · exact ⟨y, by rw [Heap.get_put_ne _ hab]; exact hy⟩
    refine ⟨hw.mapLive, hw.stoRc, hw.sorted, ?_, ?_, ?_, ?_, hw.esLive⟩
    · intro s st hst e he; exact live _ (hw.entLive s st hst e he)
    · intro b y hy
      obtain ⟨y0, h0, h1, _⟩ := key b y hy
      have := hw.arrRc b y0 h0
      have e : arefs { w with arrs := w.arrs.put a (some { x with rc := x.rc + 1 }) } b
        = arefs w b := rfl
      rw [e]; omega
    · intro b y hy
      obtain ⟨y0, h0, _, h1⟩ := key b y hy
      exact h1 (hw.arrOk b y0 h0)
    · intro b hb
      by_cases hab : a = b
      · subst hab; exact live _ ⟨x, hx⟩
      · simp [hab] at hb; exact live _ (hw.eaLive b hb)
  · refine ⟨by simp, Nat.le_refl _, ?_, fun _ st' _ _ h => ⟨st', h, rfl, rfl⟩⟩
    intro b y _ hy
    by_cases hab : a = b
    · subst hab
      simp only at hy
      rw [Heap.get_put_self _ hl] at hy
      simp at hy; subst hy
      exact ⟨x, hx, rfl⟩
    · simp only at hy
      rw [Heap.get_put_ne _ hab] at hy
      exact ⟨y, hy, rfl⟩

theorem releaseArr_wf {w : World} {ea es : Nat → Nat} {a : Nat}
    (hw : Wf w (fun b => ea b + if a = b then 1 else 0) es) :
    ∃ w', releaseArr w a = .ok w' ∧ Wf w' ea es ∧
      Ext w w' none ∧ w'.maps = w.maps ∧ w'.stos = w.stos := by
  obtain ⟨x, hx⟩ := hw.eaLive a (by simp)
  have hl := Heap.get_lt hx
  have hrc := hw.arrRc a x hx
  simp at hrc
  by_cases h1 : x.rc = 1
  · have hz : arefs w a = 0 ∧ ea a = 0 := by omega
    refine ⟨{ w with arrs := w.arrs.put a none }, by simp [releaseArr, hx, h1], ?_, ?_, rfl, rfl⟩
    · have live : ∀ b, a ≠ b → (∃ y, w.arrs.get b = some y) →
          ∃ y, (w.arrs.put a none).get b = some y := by
        intro b hab ⟨y, hy⟩
        exact ⟨y, by rw [Heap.get_put_ne _ hab]; exact hy⟩
      have back : ∀ b y, (w.arrs.put a none).get b = some y → a ≠ b ∧ w.arrs.get b = some y := by
        intro b y hy
        by_cases hab : a = b
        · subst hab; rw [Heap.get_put_self _ hl] at hy; simp at hy
        · rw [Heap.get_put_ne _ hab] at hy; exact ⟨hab, hy⟩
      refine ⟨hw.mapLive, hw.stoRc, hw.sorted, ?_, ?_, ?_, ?_, hw.esLive⟩
      · intro s st hst e he
        refine live _ ?_ (hw.entLive s st hst e he)
        intro hc
        have h2 := refsIn_pos_of_mem he
        have h3 : refsIn st.data a ≤ w.stos.sumOver fun st => refsIn st.data a :=
          Heap.le_sumOver (f := fun st : Sto => refsIn st.data a) hst
        have h4 : (w.stos.sumOver fun st => refsIn st.data a) = 0 := hz.1
        rw [← hc] at h2; omega
      · intro b y hy
        obtain ⟨hab, hy⟩ := back b y hy
        have := hw.arrRc b y hy
        simp [hab] at this
        have e : arefs { w with arrs := w.arrs.put a none } b = arefs w b := rfl
        rw [e]; omega
      · intro b y hy
        exact hw.arrOk b y (back b y hy).2
      · intro b hb
        refine live b ?_ (hw.eaLive b (by omega))
        intro hc; subst hc; omega
    · refine ⟨by simp, Nat.le_refl _, ?_, fun _ st' _ _ h => ⟨st', h, rfl, rfl⟩⟩
      intro b y _ hy
      simp only at hy
      by_cases hab : a = b
      · subst hab; rw [Heap.get_put_self _ hl] at hy; simp at hy
      · rw [Heap.get_put_ne _ hab] at hy; exact ⟨y, hy, rfl⟩
  · refine ⟨{ w with arrs := w.arrs.put a (some { x with rc := x.rc - 1 }) }, ?_, ?_, ?_, rfl, rfl⟩
    · simp [releaseArr, hx, h1]; omega
    · have key : ∀ b y, (w.arrs.put a (some { x with rc := x.rc - 1 })).get b = some y →
          ∃ y0, w.arrs.get b = some y0 ∧ y.rc + (if a = b then 1 else 0) = y0.rc ∧ 0 < y.rc ∧
            (ArrOk y0 → ArrOk y) := by
        intro b y hy
        by_cases hab : a = b
        · subst hab
          rw [Heap.get_put_self _ hl] at hy
          simp at hy; subst hy
          refine ⟨x, hx, ?_, ?_, fun h => ⟨h.len, h.small, h.fits⟩⟩
          · simp; omega
          · simp; omega
        · rw [Heap.get_put_ne _ hab] at hy
          exact ⟨y, hy, by simp [hab], (hw.arrRc b y hy).2, id⟩
      have live : ∀ b, (∃ y, w.arrs.get b = some y) →
          ∃ y, (w.arrs.put a (some { x with rc := x.rc - 1 })).get b = some y := by
        intro b ⟨y, hy⟩
        by_cases hab : a = b
        · subst hab; exact ⟨_, Heap.get_put_self _ hl⟩
        · exact ⟨y, by rw [Heap.get_put_ne _ hab]; exact hy⟩
      refine ⟨hw.mapLive, hw.stoRc, hw.sorted, ?_, ?_, ?_, ?_, hw.esLive⟩
      · intro s st hst e he; exact live _ (hw.entLive s st hst e he)
      · intro b y hy
        obtain ⟨y0, h0, h1, h2, _⟩ := key b y hy
        have := hw.arrRc b y0 h0
        have e : arefs { w with arrs := w.arrs.put a (some { x with rc := x.rc - 1 }) } b
          = arefs w b := rfl
        rw [e]
        omega
      · intro b y hy
        obtain ⟨y0, h0, _, _, h1⟩ := key b y hy
        exact h1 (hw.arrOk b y0 h0)
      · intro b hb
        exact live _ (hw.eaLive b (by omega))
    · refine ⟨by simp, Nat.le_refl _, ?_, fun _ st' _ _ h => ⟨st', h, rfl, rfl⟩⟩
      intro b y _ hy
      simp only at hy
      by_cases hab : a = b
      · subst hab
        rw [Heap.get_put_self _ hl] at hy
        simp at hy; subst hy
        exact ⟨x, hx, rfl⟩
      · rw [Heap.get_put_ne _ hab] at hy
        exact ⟨y, hy, rfl⟩

theorem Wf.congr {w : World} {ea es ea' es' : Nat → Nat} (hw : Wf w ea es) (h1 : ∀ a, ea a = ea' a)
    (h2 : ∀ s, es s = es' s) : Wf w ea' es' := by
  have e1 : ea = ea' := funext h1
  have e2 : es = es' := funext h2
  subst e1; subst e2; exact hw

theorem addRefs_wf {L : List Nat} : ∀ {w : World} {ea es : Nat → Nat}, Wf w ea es →
    (∀ a ∈ L, ∃ x, w.arrs.get a = some x) →
    ∃ w', addRefs w L = .ok w' ∧ Wf w' (fun b => ea b + L.count b) es ∧
      Ext w w' none ∧ w'.maps = w.maps ∧ w'.stos = w.stos ∧
      (∀ a x, w.arrs.get a = some x → ∃ x', w'.arrs.get a = some x') := by
  induction L with
  | nil =>
    intro w ea es hw _
    exact ⟨w, rfl, hw.congr (by simp) (fun _ => rfl), Ext.refl _ _, rfl, rfl, fun a x h => ⟨x, h⟩⟩
  | cons a t ih =>
    intro w ea es hw hl
    obtain ⟨w1, e1, hw1, x1, m1, s1⟩ := addRefArr_wf hw (hl a (by simp))
    have live : ∀ b x, w.arrs.get b = some x → ∃ x', w1.arrs.get b = some x' := by
      intro b x hx
      unfold addRefArr at e1
      cases ha : w.arrs.get a with
      | none => rw [ha] at e1; simp at e1
      | some y =>
        rw [ha] at e1; simp at e1
        rw [← e1]
        simp only
        by_cases hab : a = b
        · subst hab; exact ⟨_, Heap.get_put_self _ (Heap.get_lt ha)⟩
        · exact ⟨x, by rw [Heap.get_put_ne _ hab]; exact hx⟩
    obtain ⟨w2, e2, hw2, x2, m2, s2, l2⟩ := ih hw1 (by
      intro b hb
      obtain ⟨x, hx⟩ := hl b (by simp [hb])
      exact live b x hx)
    refine ⟨w2, ?_, ?_, x1.trans x2, m2.trans m1, s2.trans s1, ?_⟩
    · simp only [addRefs, e1, Res.bind_ok, e2]
    · refine hw2.congr ?_ (fun _ => rfl)
      intro b
      simp only [List.count_cons, beq_iff_eq]
      omega
    · intro b x hx
      obtain ⟨x', hx'⟩ := live b x hx
      exact l2 b x' hx'

theorem releases_wf {L : List Nat} : ∀ {w : World} {ea es : Nat → Nat},
    Wf w (fun b => ea b + L.count b) es →
    ∃ w', releases w L = .ok w' ∧ Wf w' ea es ∧
      Ext w w' none ∧ w'.maps = w.maps ∧ w'.stos = w.stos := by
  induction L with
  | nil =>
    intro w ea es hw
    exact ⟨w, rfl, hw.congr (by simp) (fun _ => rfl), Ext.refl _ _, rfl, rfl⟩
  | cons a t ih =>
    intro w ea es hw
    obtain ⟨w1, e1, hw1, x1, m1, s1⟩ := releaseArr_wf (a := a) (ea := fun b => ea b + t.count b)
      (hw.congr (by
        intro b
        simp only [List.count_cons, beq_iff_eq]
        omega) (fun _ => rfl))
    obtain ⟨w2, e2, hw2, x2, m2, s2⟩ := ih hw1
    exact ⟨w2, by simp only [releases, e1, Res.bind_ok, e2], hw2, x1.trans x2, m2.trans m1,
      s2.trans s1⟩

/-- A new array, held by the call in progress. -/
theorem newArr_wf {w : World} {ea es : Nat → Nat} (hw : Wf w ea es) {x : Arr} (hx : ArrOk x)
    (hrc : x.rc = 1) :
    Wf (newArr w x).1 (fun b => ea b + if w.arrs.length = b then 1 else 0) es ∧
      Ext w (newArr w x).1 none := by
  have back : ∀ b y, (w.arrs.alloc x).get b = some y →
      (b = w.arrs.length ∧ y = x) ∨ (b ≠ w.arrs.length ∧ w.arrs.get b = some y) := by
    intro b y hy
    by_cases hb : b = w.arrs.length
    · subst hb; rw [Heap.get_alloc_self] at hy; simp at hy; exact .inl ⟨rfl, hy.symm⟩
    · rw [Heap.get_alloc_ne hb] at hy; exact .inr ⟨hb, hy⟩
  have hz1 : arefs w w.arrs.length = 0 := by
    refine Heap.sumOver_eq_zero fun s st hst => ?_
    refine Classical.byContradiction fun hc => ?_
    obtain ⟨k, hk⟩ := mem_of_refsIn_pos (Nat.pos_of_ne_zero hc)
    obtain ⟨y, hy⟩ := hw.entLive s st hst _ hk
    have := Heap.get_lt hy
    simp at this
  have hz2 : ea w.arrs.length = 0 := by
    refine Classical.byContradiction fun hc => ?_
    obtain ⟨y, hy⟩ := hw.eaLive _ (Nat.pos_of_ne_zero hc)
    have := Heap.get_lt hy
    omega
  refine ⟨⟨hw.mapLive, hw.stoRc, hw.sorted, ?_, ?_, ?_, ?_, hw.esLive⟩, ?_⟩
  · intro s st hst e he
    obtain ⟨y, hy⟩ := hw.entLive s st hst e he
    exact ⟨y, Heap.get_alloc_of_some hy⟩
  · intro b y hy
    have e : arefs (newArr w x).1 b = arefs w b := rfl
    rw [e]
    rcases back b y hy with ⟨rfl, rfl⟩ | ⟨hb, hy⟩
    · simp; omega
    · have := hw.arrRc b y hy
      simp only [if_neg (Ne.symm hb)]
      omega
  · intro b y hy
    rcases back b y hy with ⟨rfl, rfl⟩ | ⟨hb, hy⟩
    · exact hx
    · exact hw.arrOk b y hy
  · intro b hb
    by_cases h : w.arrs.length = b
    · subst h; exact ⟨x, Heap.get_alloc_self _ _⟩
    · simp [h] at hb
      obtain ⟨y, hy⟩ := hw.eaLive b hb
      exact ⟨y, Heap.get_alloc_of_some hy⟩
  · refine ⟨by simp [newArr], Nat.le_refl _, ?_, fun _ st' _ _ h => ⟨st', h, rfl, rfl⟩⟩
    intro b y hb hy
    simp only [newArr] at hy
    rw [Heap.get_alloc_ne (by omega)] at hy
    exact ⟨y, hy, rfl⟩

/-- Replacing the entries of a storage moves references between it and the call in progress. -/
theorem putS_wf {w : World} {ea es ea' : Nat → Nat} (hw : Wf w ea es) {s : Nat} {st st' : Sto}
    (hst : w.stos.get s = some st) (hrc : st'.rc = st.rc) (hs : Sorted st'.data)
    (hlive : ∀ e ∈ st'.data, ∃ x, w.arrs.get e.2 = some x)
    (hea : ∀ a, ea' a + refsIn st'.data a = ea a + refsIn st.data a) :
    Wf (putS w s st') ea' es ∧ Ext w (putS w s st') (some s) := by
  have hl := Heap.get_lt hst
  have back : ∀ s1 y, (w.stos.put s (some st')).get s1 = some y →
      (s1 = s ∧ y = st') ∨ (s ≠ s1 ∧ w.stos.get s1 = some y) := by
    intro s1 y hy
    by_cases hb : s = s1
    · subst hb; rw [Heap.get_put_self _ hl] at hy; simp at hy; exact .inl ⟨rfl, hy.symm⟩
    · rw [Heap.get_put_ne _ hb] at hy; exact .inr ⟨hb, hy⟩
  have live : ∀ s1, (∃ y, w.stos.get s1 = some y) →
      ∃ y, (w.stos.put s (some st')).get s1 = some y := by
    intro s1 ⟨y, hy⟩
    by_cases hb : s = s1
    · subst hb; exact ⟨_, Heap.get_put_self _ hl⟩
    · exact ⟨y, by rw [Heap.get_put_ne _ hb]; exact hy⟩
  have harefs : ∀ a, arefs (putS w s st') a + refsIn st.data a = arefs w a + refsIn st'.data a := by
    intro a
    have := Heap.sumOver_put (fun st : Sto => refsIn st.data a) w.stos s (some st') hl
    rw [hst] at this
    simpa [arefs, putS] using this
  have arefs_ge : ∀ a, refsIn st.data a ≤ arefs w a := fun a =>
    Heap.le_sumOver (f := fun st : Sto => refsIn st.data a) hst
  refine ⟨⟨?_, ?_, ?_, ?_, ?_, hw.arrOk, ?_, ?_⟩, ?_⟩
  · intro m s1 hm; exact live _ (hw.mapLive m s1 hm)
  · intro s1 y hy
    have e : mrefs (putS w s st') s1 = mrefs w s1 := rfl
    rw [e]
    rcases back s1 y hy with ⟨rfl, rfl⟩ | ⟨hb, hy⟩
    · have := hw.stoRc _ st hst; omega
    · exact hw.stoRc s1 y hy
  · intro s1 y hy
    rcases back s1 y hy with ⟨rfl, rfl⟩ | ⟨hb, hy⟩
    · exact hs
    · exact hw.sorted s1 y hy
  · intro s1 y hy e he
    rcases back s1 y hy with ⟨rfl, rfl⟩ | ⟨hb, hy⟩
    · exact hlive e he
    · exact hw.entLive s1 y hy e he
  · intro a x hx
    have h1 := hw.arrRc a x hx
    have h2 := harefs a
    have h3 := hea a
    have h4 := arefs_ge a
    omega
  · intro a ha
    by_cases h0 : 0 < ea a
    · exact hw.eaLive a h0
    · have h3 := hea a
      obtain ⟨k, hk⟩ := mem_of_refsIn_pos (l := st.data) (a := a) (by omega)
      exact hw.entLive s st hst _ hk
  · intro s1 h1; exact live _ (hw.esLive s1 h1)
  · refine ⟨Nat.le_refl _, by simp [putS], fun _ x' _ h => ⟨x', h, rfl⟩, ?_⟩
    intro s1 y hl1 hS hy
    rcases back s1 y hy with ⟨rfl, rfl⟩ | ⟨hb, hy⟩
    · simp at hS
    · exact ⟨y, hy, rfl, rfl⟩

/-- Changing the pointer of a map moves a reference between it and the call in progress. -/
theorem putM_wf {w : World} {ea es es' : Nat → Nat} (hw : Wf w ea es) {m : Nat} {v : Option Nat}
    (hm : m < w.maps.length)
    (hlive : ∀ s, v = some s → ∃ st, w.stos.get s = some st)
    (hes : ∀ s, es' s + (w.maps.put m v).sumOver (fun s' => if s' = s then 1 else 0)
      = es s + mrefs w s) (hes' : ∀ s, 0 < es' s → ∃ st, w.stos.get s = some st) :
    Wf (putM w m v) ea es' ∧ Ext w (putM w m v) none := by
  refine ⟨⟨?_, ?_, hw.sorted, hw.entLive, hw.arrRc, hw.arrOk, hw.eaLive, hes'⟩, ?_⟩
  · intro m1 s1 h
    simp only [putM] at h
    by_cases hb : m = m1
    · subst hb; rw [Heap.get_put_self _ hm] at h; exact hlive s1 h
    · rw [Heap.get_put_ne _ hb] at h; exact hw.mapLive m1 s1 h
  · intro s1 st hst
    have h1 := hw.stoRc s1 st hst
    have h2 := hes s1
    have e : mrefs (putM w m v) s1
      = (w.maps.put m v).sumOver (fun s' => if s' = s1 then 1 else 0) := rfl
    rw [e]; omega
  · exact ⟨Nat.le_refl _, Nat.le_refl _, fun _ x' _ h => ⟨x', h, rfl⟩,
      fun _ st' _ _ h => ⟨st', h, rfl, rfl⟩⟩

theorem mrefs_put {w : World} {m : Nat} {v : Option Nat} (hm : m < w.maps.length) (s : Nat) :
    (w.maps.put m v).sumOver (fun s' => if s' = s then 1 else 0)
      + (if w.maps.get m = some s then 1 else 0)
      = mrefs w s + (if v = some s then 1 else 0) := by
  have h := Heap.sumOver_put (fun s' => if s' = s then 1 else 0) w.maps m v hm
  have e : ∀ o : Option Nat, Heap.cell (fun s' => if s' = s then 1 else 0) o
      = if o = some s then 1 else 0 := by
    intro o; cases o <;> simp
  rw [e, e] at h
  exact h

/-- A new storage, held by the call in progress; its entries take references from the call. -/
theorem newSto_wf {w : World} {ea es ea' : Nat → Nat} (hw : Wf w ea es) {st : Sto}
    (hrc : st.rc = 1) (hs : Sorted st.data)
    (hlive : ∀ e ∈ st.data, ∃ x, w.arrs.get e.2 = some x)
    (hea : ∀ a, ea' a + refsIn st.data a = ea a) :
    Wf (newSto w st) ea' (fun s => es s + if w.stos.length = s then 1 else 0) ∧
      Ext w (newSto w st) none := by
  have back : ∀ s1 y, (w.stos.alloc st).get s1 = some y →
      (s1 = w.stos.length ∧ y = st) ∨ (s1 ≠ w.stos.length ∧ w.stos.get s1 = some y) := by
    intro s1 y hy
    by_cases hb : s1 = w.stos.length
    · subst hb; rw [Heap.get_alloc_self] at hy; simp at hy; exact .inl ⟨rfl, hy.symm⟩
    · rw [Heap.get_alloc_ne hb] at hy; exact .inr ⟨hb, hy⟩
  have hz1 : mrefs w w.stos.length = 0 := by
    refine Heap.sumOver_eq_zero fun m s hms => ?_
    refine Classical.byContradiction fun hc => ?_
    by_cases h : s = w.stos.length
    · obtain ⟨y, hy⟩ := hw.mapLive m s hms
      have := Heap.get_lt hy
      omega
    · simp [h] at hc
  have hz2 : es w.stos.length = 0 := by
    refine Classical.byContradiction fun hc => ?_
    obtain ⟨y, hy⟩ := hw.esLive _ (Nat.pos_of_ne_zero hc)
    have := Heap.get_lt hy
    omega
  refine ⟨⟨?_, ?_, ?_, ?_, ?_, hw.arrOk, ?_, ?_⟩, ?_⟩
  · intro m s hm
    obtain ⟨y, hy⟩ := hw.mapLive m s hm
    exact ⟨y, Heap.get_alloc_of_some hy⟩
  · intro s1 y hy
    have e : mrefs (newSto w st) s1 = mrefs w s1 := rfl
    rw [e]
    rcases back s1 y hy with ⟨rfl, rfl⟩ | ⟨hb, hy⟩
    · simp; omega
    · have := hw.stoRc s1 y hy
      simp only [if_neg (Ne.symm hb)]
      omega
  · intro s1 y hy
    rcases back s1 y hy with ⟨rfl, rfl⟩ | ⟨hb, hy⟩
    · exact hs
    · exact hw.sorted s1 y hy
  · intro s1 y hy
    rcases back s1 y hy with ⟨rfl, rfl⟩ | ⟨hb, hy⟩
    · exact hlive
    · exact hw.entLive s1 y hy
  · intro a x hx
    have h1 := hw.arrRc a x hx
    have e : arefs (newSto w st) a = arefs w a + refsIn st.data a := by
      simp [arefs, newSto, Heap.sumOver_alloc]
    have := hea a
    omega
  · intro a ha
    have := hea a
    exact hw.eaLive a (by omega)
  · intro s1 h1
    by_cases hb : w.stos.length = s1
    · subst hb; exact ⟨st, Heap.get_alloc_self _ _⟩
    · simp [hb] at h1
      obtain ⟨y, hy⟩ := hw.esLive s1 h1
      exact ⟨y, Heap.get_alloc_of_some hy⟩
  · refine ⟨Nat.le_refl _, by simp [newSto], fun _ x' _ h => ⟨x', h, rfl⟩, ?_⟩
    intro s1 y hl _ hy
    rcases back s1 y hy with ⟨rfl, rfl⟩ | ⟨hb, hy⟩
    · omega
    · exact ⟨y, hy, rfl, rfl⟩

/-- Dropping a reference to a storage. -/
theorem releaseSto_wf {w : World} {ea es : Nat → Nat} {s : Nat}
    (hw : Wf w ea (fun t => es t + if s = t then 1 else 0)) :
    ∃ w', releaseSto w s = .ok w' ∧ Wf w' ea es ∧ Ext w w' none ∧ w'.maps = w.maps := by
  obtain ⟨st, hst⟩ := hw.esLive s (by simp)
  have hl := Heap.get_lt hst
  have hrc := hw.stoRc s st hst
  simp at hrc
  by_cases h1 : st.rc = 1
  · have hz : mrefs w s = 0 ∧ es s = 0 := by omega
    have back : ∀ s1 y, (w.stos.put s none).get s1 = some y → s ≠ s1 ∧ w.stos.get s1 = some y := by
      intro s1 y hy
      by_cases hab : s = s1
      · subst hab; rw [Heap.get_put_self _ hl] at hy; simp at hy
      · rw [Heap.get_put_ne _ hab] at hy; exact ⟨hab, hy⟩
    have live : ∀ s1, s ≠ s1 → (∃ y, w.stos.get s1 = some y) →
        ∃ y, (w.stos.put s none).get s1 = some y := by
      intro s1 hab ⟨y, hy⟩
      exact ⟨y, by rw [Heap.get_put_ne _ hab]; exact hy⟩
    have harefs : ∀ a, arefs { w with stos := w.stos.put s none } a + refsIn st.data a
        = arefs w a := by
      intro a
      have := Heap.sumOver_put (fun st : Sto => refsIn st.data a) w.stos s none hl
      rw [hst] at this
      simpa [arefs] using this
    have hw1 : Wf { w with stos := w.stos.put s none }
        (fun b => ea b + (st.data.map (·.2)).count b) es := by
      refine ⟨?_, ?_, ?_, ?_, ?_, hw.arrOk, ?_, ?_⟩
      · intro m s1 hm
        refine live s1 ?_ (hw.mapLive m s1 hm)
        intro hc; subst hc
        have h3 := Heap.le_sumOver (f := fun s' => if s' = s then 1 else 0) hm
        have h4 : (w.maps.sumOver fun s' => if s' = s then 1 else 0) = 0 := hz.1
        simp at h3
        omega
      · intro s1 y hy
        obtain ⟨hb, hy⟩ := back s1 y hy
        have := hw.stoRc s1 y hy
        simp [hb] at this
        have e : mrefs { w with stos := w.stos.put s none } s1 = mrefs w s1 := rfl
        rw [e]; exact this
      · intro s1 y hy; exact hw.sorted s1 y (back s1 y hy).2
      · intro s1 y hy; exact hw.entLive s1 y (back s1 y hy).2
      · intro a x hx
        have := hw.arrRc a x hx
        have h2 := harefs a
        unfold refsIn at h2
        omega
      · intro a ha
        by_cases h0 : 0 < ea a
        · exact hw.eaLive a h0
        · obtain ⟨k, hk⟩ := mem_of_refsIn_pos (l := st.data) (a := a) (by unfold refsIn; omega)
          exact hw.entLive s st hst _ hk
      · intro s1 h
        refine live s1 ?_ (hw.esLive s1 (by omega))
        intro hc; subst hc; omega
    obtain ⟨w2, e2, hw2, x2, m2, s2⟩ := releases_wf hw1
    refine ⟨w2, ?_, hw2, ?_, m2⟩
    · simp only [releaseSto, getS, hst, Res.bind_ok, h1]
      simpa using e2
    · refine Ext.trans ?_ x2
      refine ⟨Nat.le_refl _, by simp, fun _ x' _ h => ⟨x', h, rfl⟩, ?_⟩
      intro s1 y _ _ hy
      exact ⟨y, (back s1 y hy).2, rfl, rfl⟩
  · refine ⟨putS w s { st with rc := st.rc - 1 }, ?_, ?_, ?_, rfl⟩
    · simp only [releaseSto, getS, hst, Res.bind_ok]
      rw [if_neg (by omega), if_neg h1]
    · have back : ∀ s1 y, (w.stos.put s (some { st with rc := st.rc - 1 })).get s1 = some y →
          ∃ y0, w.stos.get s1 = some y0 ∧ y.rc + (if s = s1 then 1 else 0) = y0.rc ∧ 0 < y.rc ∧
            y.data = y0.data := by
        intro s1 y hy
        by_cases hb : s = s1
        · subst hb; rw [Heap.get_put_self _ hl] at hy; simp at hy; subst hy
          refine ⟨st, hst, ?_, ?_, rfl⟩
          · simp; omega
          · simp; omega
        · rw [Heap.get_put_ne _ hb] at hy
          exact ⟨y, hy, by simp [hb], (hw.stoRc s1 y hy).2, rfl⟩
      have live : ∀ s1, (∃ y, w.stos.get s1 = some y) →
          ∃ y, (w.stos.put s (some { st with rc := st.rc - 1 })).get s1 = some y := by
        intro s1 ⟨y, hy⟩
        by_cases hb : s = s1
        · subst hb; exact ⟨_, Heap.get_put_self _ hl⟩
        · exact ⟨y, by rw [Heap.get_put_ne _ hb]; exact hy⟩
      have harefs : ∀ a, arefs (putS w s { st with rc := st.rc - 1 }) a = arefs w a := by
        intro a
        have := Heap.sumOver_put (fun st : Sto => refsIn st.data a) w.stos s
          (some { st with rc := st.rc - 1 }) hl
        rw [hst] at this
        simp at this
        exact this
      refine ⟨?_, ?_, ?_, ?_, ?_, hw.arrOk, hw.eaLive, ?_⟩
      · intro m s1 hm; exact live _ (hw.mapLive m s1 hm)
      · intro s1 y hy
        obtain ⟨y0, h0, h2, h3, _⟩ := back s1 y hy
        have := hw.stoRc s1 y0 h0
        have e : mrefs (putS w s { st with rc := st.rc - 1 }) s1 = mrefs w s1 := rfl
        rw [e]
        omega
      · intro s1 y hy
        obtain ⟨y0, h0, _, _, h3⟩ := back s1 y hy
        rw [h3]; exact hw.sorted s1 y0 h0
      · intro s1 y hy
        obtain ⟨y0, h0, _, _, h3⟩ := back s1 y hy
        rw [h3]; exact hw.entLive s1 y0 h0
      · intro a x hx
        rw [harefs]; exact hw.arrRc a x hx
      · intro s1 h; exact live _ (hw.esLive s1 (by omega))
    · refine ⟨Nat.le_refl _, by simp [putS], fun _ x' _ h => ⟨x', h, rfl⟩, ?_⟩
      intro s1 y _ _ hy
      simp only [putS] at hy
      by_cases hb : s = s1
      · subst hb; rw [Heap.get_put_self _ hl] at hy; simp at hy; subst hy
        exact ⟨st, hst, rfl, rfl⟩
      · rw [Heap.get_put_ne _ hb] at hy; exact ⟨y, hy, rfl, rfl⟩

/-- Taking a reference to a storage. -/
theorem addRefSto_wf {w : World} {ea es : Nat → Nat} (hw : Wf w ea es) {s : Nat} {st : Sto}
    (hst : w.stos.get s = some st) :
    addRefSto w s = .ok (putS w s { st with rc := st.rc + 1 }) ∧
      Wf (putS w s { st with rc := st.rc + 1 }) ea (fun t => es t + if s = t then 1 else 0) ∧
      Ext w (putS w s { st with rc := st.rc + 1 }) none := by
  have hl := Heap.get_lt hst
  refine ⟨by simp [addRefSto, getS, hst], ?_, ?_⟩
  · have back : ∀ s1 y, (w.stos.put s (some { st with rc := st.rc + 1 })).get s1 = some y →
        ∃ y0, w.stos.get s1 = some y0 ∧ y.rc = y0.rc + (if s = s1 then 1 else 0) ∧
          y.data = y0.data := by
      intro s1 y hy
      by_cases hb : s = s1
      · subst hb; rw [Heap.get_put_self _ hl] at hy; simp at hy; subst hy
        exact ⟨st, hst, by simp, rfl⟩
      · rw [Heap.get_put_ne _ hb] at hy
        exact ⟨y, hy, by simp [hb], rfl⟩
    have live : ∀ s1, (∃ y, w.stos.get s1 = some y) →
        ∃ y, (w.stos.put s (some { st with rc := st.rc + 1 })).get s1 = some y := by
      intro s1 ⟨y, hy⟩
      by_cases hb : s = s1
      · subst hb; exact ⟨_, Heap.get_put_self _ hl⟩
      · exact ⟨y, by rw [Heap.get_put_ne _ hb]; exact hy⟩
    have harefs : ∀ a, arefs (putS w s { st with rc := st.rc + 1 }) a = arefs w a := by
      intro a
      have := Heap.sumOver_put (fun st : Sto => refsIn st.data a) w.stos s
        (some { st with rc := st.rc + 1 }) hl
      rw [hst] at this
      simp at this
      exact this
    refine ⟨?_, ?_, ?_, ?_, ?_, hw.arrOk, hw.eaLive, ?_⟩
    · intro m s1 hm; exact live _ (hw.mapLive m s1 hm)
    · intro s1 y hy
      obtain ⟨y0, h0, h2, _⟩ := back s1 y hy
      have := hw.stoRc s1 y0 h0
      have e : mrefs (putS w s { st with rc := st.rc + 1 }) s1 = mrefs w s1 := rfl
      rw [e]
      omega
    · intro s1 y hy
      obtain ⟨y0, h0, _, h3⟩ := back s1 y hy
      rw [h3]; exact hw.sorted s1 y0 h0
    · intro s1 y hy
      obtain ⟨y0, h0, _, h3⟩ := back s1 y hy
      rw [h3]; exact hw.entLive s1 y0 h0
    · intro a x hx
      rw [harefs]; exact hw.arrRc a x hx
    · intro s1 h
      by_cases hb : s = s1
      · subst hb; exact live _ ⟨st, hst⟩
      · simp [hb] at h; exact live _ (hw.esLive s1 h)
  · refine ⟨Nat.le_refl _, by simp [putS], fun _ x' _ h => ⟨x', h, rfl⟩, ?_⟩
    intro s1 y _ _ hy
    simp only [putS] at hy
    by_cases hb : s = s1
    · subst hb; rw [Heap.get_put_self _ hl] at hy; simp at hy; subst hy
      exact ⟨st, hst, rfl, rfl⟩
    · rw [Heap.get_put_ne _ hb] at hy; exact ⟨y, hy, rfl, rfl⟩

end VS.Map
