import Verif.Base.C

/-!
# A heap of reference counted objects

Generic part of the models that talk about object identity: a heap is a list of cells, a cell
is `none` once its object has been deleted, addresses are positions.  Addresses are never
reused, so a dangling address can always be told from a live one (the real allocator may reuse
them; programs that never touch a dead address, which is what is proved, cannot tell).
-/

namespace VS

/-- A heap of objects of one class. -/
abbrev Heap (α : Type) := List (Option α)

namespace Heap
variable {α : Type}

/-- The live object at an address. -/
def get (h : Heap α) (i : Nat) : Option α := h[i]?.join

/-- Overwrite (or, with `none`, delete) the object at an address. -/
def put (h : Heap α) (i : Nat) (v : Option α) : Heap α := List.set h i v

/-- `new`: the address of the next object is `h.length`. -/
def alloc (h : Heap α) (x : α) : Heap α := h ++ [some x]

/-- Sum of a quantity over the live objects. -/
def sumOver (f : α → Nat) : Heap α → Nat
  | [] => 0
  | none :: t => sumOver f t
  | some x :: t => f x + sumOver f t

/-- The quantity of one cell. -/
def cell (f : α → Nat) : Option α → Nat
  | none => 0
  | some x => f x

@[simp] theorem cell_none (f : α → Nat) : cell f none = 0 := rfl
@[simp] theorem cell_some (f : α → Nat) (x : α) : cell f (some x) = f x := rfl

theorem get_lt {h : Heap α} {i : Nat} {x : α} (e : h.get i = some x) : i < h.length := by
  unfold get at e
  rcases Nat.lt_or_ge i h.length with hl | hl
  · exact hl
  · rw [List.getElem?_eq_none hl] at e; simp at e

theorem get_of_ge {h : Heap α} {i : Nat} (e : h.length ≤ i) : h.get i = none := by
  unfold get; rw [List.getElem?_eq_none e]; rfl

theorem get_put_self {h : Heap α} {i : Nat} (v : Option α) (hl : i < h.length) :
    (h.put i v).get i = v := by
  unfold get put; simp [hl]

theorem get_put_ne {h : Heap α} {i j : Nat} (v : Option α) (hne : i ≠ j) :
    (h.put i v).get j = h.get j := by
  unfold get put; simp [hne]

theorem get_alloc_self (h : Heap α) (x : α) : (h.alloc x).get h.length = some x := by
  unfold get alloc; simp

theorem get_alloc_ne {h : Heap α} {x : α} {j : Nat} (hne : j ≠ h.length) :
    (h.alloc x).get j = h.get j := by
  unfold get alloc
  rcases Nat.lt_or_ge j h.length with hl | hl
  · rw [List.getElem?_append_left hl]
  · rw [List.getElem?_eq_none hl, List.getElem?_eq_none]; simp; omega

theorem get_alloc_of_some {h : Heap α} {x y : α} {j : Nat} (e : h.get j = some y) :
    (h.alloc x).get j = some y := by
  rw [get_alloc_ne (Nat.ne_of_lt (get_lt e)), e]

@[simp] theorem length_put (h : Heap α) (i : Nat) (v : Option α) :
    (h.put i v).length = h.length := by unfold put; simp

@[simp] theorem length_alloc (h : Heap α) (x : α) : (h.alloc x).length = h.length + 1 := by
  unfold alloc; simp

theorem sumOver_append (f : α → Nat) (a b : Heap α) :
    sumOver f (a ++ b) = sumOver f a + sumOver f b := by
  induction a with
  | nil => simp [sumOver]
  | cons o t ih => cases o <;> simp [sumOver, ih] <;> omega

theorem sumOver_alloc (f : α → Nat) (h : Heap α) (x : α) :
    sumOver f (h.alloc x) = sumOver f h + f x := by
  unfold alloc; rw [sumOver_append]; simp [sumOver]

/-- Changing one cell changes the sum by the difference of the two cells. -/
theorem sumOver_put (f : α → Nat) (h : Heap α) (i : Nat) (v : Option α) (hl : i < h.length) :
    sumOver f (h.put i v) + cell f (h.get i) = sumOver f h + cell f v := by
  induction h generalizing i with
  | nil => simp at hl
  | cons o t ih =>
    cases i with
    | zero =>
      cases o <;> cases v <;> simp [put, get, sumOver, cell] <;> omega
    | succ i =>
      have hl' : i < t.length := by simpa using hl
      have := ih i hl'
      have e1 : put (o :: t) (i + 1) v = o :: put t i v := by simp [put]
      have e2 : get (o :: t) (i + 1) = get t i := by simp [get]
      rw [e1, e2]
      cases o <;> simp [sumOver] <;> omega

theorem cell_le_sumOver (f : α → Nat) (h : Heap α) (i : Nat) :
    cell f (h.get i) ≤ sumOver f h := by
  induction h generalizing i with
  | nil => simp [get]
  | cons o t ih =>
    cases i with
    | zero => cases o <;> simp [get, sumOver]
    | succ i =>
      have := ih i
      have e2 : get (o :: t) (i + 1) = get t i := by simp [get]
      rw [e2]
      cases o <;> simp [sumOver] <;> omega

theorem le_sumOver {f : α → Nat} {h : Heap α} {i : Nat} {x : α} (e : h.get i = some x) :
    f x ≤ sumOver f h := by
  have := cell_le_sumOver f h i
  rw [e] at this
  exact this

/-- Two different live cells together are at most the sum. -/
theorem add_le_sumOver {f : α → Nat} {h : Heap α} {i j : Nat} {x y : α} (hij : i ≠ j)
    (ei : h.get i = some x) (ej : h.get j = some y) : f x + f y ≤ sumOver f h := by
  have h1 := sumOver_put f h i none (get_lt ei)
  rw [ei] at h1
  have h2 : cell f ((h.put i none).get j) ≤ _ := cell_le_sumOver f (h.put i none) j
  rw [get_put_ne none hij, ej] at h2
  simp at h1 h2
  omega

theorem sumOver_eq_zero {f : α → Nat} {h : Heap α}
    (e : ∀ i x, h.get i = some x → f x = 0) : sumOver f h = 0 := by
  induction h with
  | nil => rfl
  | cons o t ih =>
    have ht : sumOver f t = 0 := ih fun i x hx => e (i + 1) x (by simpa [get] using hx)
    cases o with
    | none => simpa [sumOver] using ht
    | some x => simp [sumOver, ht]; exact e 0 x (by simp [get])

theorem exists_of_sumOver_pos {f : α → Nat} {h : Heap α} (e : 0 < sumOver f h) :
    ∃ i x, h.get i = some x ∧ 0 < f x := by
  refine Classical.byContradiction fun hc => ?_
  have : sumOver f h = 0 := sumOver_eq_zero fun i x hx => by
    refine Classical.byContradiction fun hz => hc ⟨i, x, hx, by omega⟩
  omega

end Heap
end VS
