import Verif.Work.Model
import Verif.Pool.Progress

/-!
# Lists of workers, waking up
-/

namespace VS.Work

variable {F L : Type}

theorem set_split {α : Type} {l : List α} {i : Nat} {a : α} (h : l[i]? = some a) :
    ∃ r, l.Perm (a :: r) ∧ ∀ b, (l.set i b).Perm (b :: r) := by
  induction l generalizing i with
  | nil => simp at h
  | cons x t ih =>
    cases i with
    | zero =>
      simp only [List.getElem?_cons_zero, Option.some.injEq] at h
      subst h
      exact ⟨t, .refl _, fun b => .refl _⟩
    | succ i =>
      rw [List.getElem?_cons_succ] at h
      obtain ⟨r, h1, h2⟩ := ih h
      refine ⟨x :: r, (h1.cons x).trans (.swap _ _ _), fun b => ?_⟩
      rw [List.set_cons_succ]
      exact ((h2 b).cons x).trans (.swap _ _ _)

/-- In the loop of `runTasks` and not waiting for work. -/
def Worker.awake (w : Worker) : Bool :=
  match w.place with
  | .sleep | .woken | .gone => false
  | _ => true

/-- Counted in `idleThreads`. -/
def Worker.rests (w : Worker) : Bool :=
  match w.place with
  | .sleep | .woken => true
  | _ => false

def Worker.callOf (w : Worker) : Option Nat :=
  match w.place with
  | .call c => some c
  | _ => none

def Worker.backOf (w : Worker) : Option Nat :=
  match w.place with
  | .back c => some c
  | _ => none

/-- The callback it has to deliver. -/
def Worker.outOf (w : Worker) : Option Nat :=
  match w.place with
  | .out c => some c
  | .user c => some c
  | _ => none

def Worker.toldOf (w : Worker) : Option Nat :=
  match w.place with
  | .told c => some c
  | _ => none

/-- Inside a callback given to `getFrameAsync`. -/
def Worker.inCb (as : List Nat) (w : Worker) : Bool :=
  match w.place with
  | .user c => decide (c ∈ as)
  | _ => false

/-- Some sleepers were woken up. -/
inductive Woke : List Worker → List Worker → Prop where
  | nil : Woke [] []
  | same {w : Worker} {l l' : List Worker} : Woke l l' → Woke (w :: l) (w :: l')
  | up {x : Option Nat} {l l' : List Worker} : Woke l l' → Woke (⟨.sleep, x⟩ :: l) (⟨.woken, x⟩ :: l')

theorem Woke.refl : ∀ l, Woke l l
  | [] => .nil
  | _ :: l => .same (Woke.refl l)

theorem Woke.trans : ∀ {a b c : List Worker}, Woke a b → Woke b c → Woke a c := by
  intro a b c h
  induction h generalizing c with
  | nil => intro h; exact h
  | same _ ih => intro h; cases h with
    | same h => exact .same (ih h)
    | up h => exact .up (ih h)
  | up _ ih => intro h; cases h with
    | same h => exact .up (ih h)

theorem Woke.length {a b : List Worker} (h : Woke a b) : b.length = a.length := by
  induction h <;> simp_all

theorem Woke.awake {a b : List Worker} (h : Woke a b) : b.countP Worker.awake = a.countP Worker.awake := by
  induction h with
  | nil => rfl
  | same _ ih => rw [List.countP_cons, List.countP_cons, ih]
  | up _ ih => rw [List.countP_cons, List.countP_cons, ih]; rfl

theorem Woke.rests {a b : List Worker} (h : Woke a b) : b.countP Worker.rests = a.countP Worker.rests := by
  induction h with
  | nil => rfl
  | same _ ih => rw [List.countP_cons, List.countP_cons, ih]
  | up _ ih => rw [List.countP_cons, List.countP_cons, ih]; rfl

theorem Woke.inCb {a b : List Worker} (h : Woke a b) (as : List Nat) :
    b.countP (Worker.inCb as) = a.countP (Worker.inCb as) := by
  induction h with
  | nil => rfl
  | same _ ih => rw [List.countP_cons, List.countP_cons, ih]
  | up _ ih => rw [List.countP_cons, List.countP_cons, ih]; rfl

theorem Woke.filterMap {a b : List Worker} (h : Woke a b) (f : Worker → Option Nat)
    (hf : ∀ x, f ⟨.sleep, x⟩ = f ⟨.woken, x⟩) : b.filterMap f = a.filterMap f := by
  induction h with
  | nil => rfl
  | same _ ih => rw [List.filterMap_cons, List.filterMap_cons, ih]
  | up _ ih => rw [List.filterMap_cons, List.filterMap_cons, ih, hf]

theorem Woke.mem {a b : List Worker} (h : Woke a b) {w : Worker} (hw : w ∈ b) :
    w ∈ a ∨ (w.place = .woken ∧ ⟨.sleep, w.wait⟩ ∈ a) := by
  induction h with
  | nil => cases hw
  | same _ ih =>
    rcases List.mem_cons.1 hw with rfl | hw
    · exact .inl (List.mem_cons_self ..)
    · rcases ih hw with h | h
      · exact .inl (List.mem_cons_of_mem _ h)
      · exact .inr ⟨h.1, List.mem_cons_of_mem _ h.2⟩
  | up _ ih =>
    rcases List.mem_cons.1 hw with rfl | hw
    · exact .inr ⟨rfl, List.mem_cons_self ..⟩
    · rcases ih hw with h | h
      · exact .inl (List.mem_cons_of_mem _ h)
      · exact .inr ⟨h.1, List.mem_cons_of_mem _ h.2⟩

theorem Woke.mem' {a b : List Worker} (h : Woke a b) {w : Worker} (hw : w ∈ a) :
    w ∈ b ∨ (w.place = .sleep ∧ ⟨.woken, w.wait⟩ ∈ b) := by
  induction h with
  | nil => cases hw
  | same _ ih =>
    rcases List.mem_cons.1 hw with rfl | hw
    · exact .inl (List.mem_cons_self ..)
    · rcases ih hw with h | h
      · exact .inl (List.mem_cons_of_mem _ h)
      · exact .inr ⟨h.1, List.mem_cons_of_mem _ h.2⟩
  | up _ ih =>
    rcases List.mem_cons.1 hw with rfl | hw
    · exact .inr ⟨rfl, List.mem_cons_self ..⟩
    · rcases ih hw with h | h
      · exact .inl (List.mem_cons_of_mem _ h)
      · exact .inr ⟨h.1, List.mem_cons_of_mem _ h.2⟩

/-- A worker that does not sleep is where it was. -/
theorem Woke.get {a b : List Worker} (h : Woke a b) {i : Nat} {w : Worker} (hw : a[i]? = some w)
    (hs : w.place ≠ .sleep) : b[i]? = some w := by
  induction h generalizing i with
  | nil => simp at hw
  | same _ ih =>
    cases i with
    | zero => simpa using hw
    | succ i => rw [List.getElem?_cons_succ] at hw ⊢; exact ih hw
  | up _ ih =>
    cases i with
    | zero =>
      simp only [List.getElem?_cons_zero, Option.some.injEq] at hw
      subst hw
      exact absurd rfl hs
    | succ i => rw [List.getElem?_cons_succ] at hw ⊢; exact ih hw

theorem Woke.set_up {l : List Worker} {i : Nat} {w : Worker} (h : l[i]? = some w) (hs : w.place = .sleep) :
    Woke l (l.modify i (fun w => { w with place := .woken })) := by
  induction l generalizing i with
  | nil => simp at h
  | cons x t ih =>
    cases i with
    | zero =>
      simp only [List.getElem?_cons_zero, Option.some.injEq] at h
      subst h
      obtain ⟨p, q⟩ := x
      subst hs
      exact .up (Woke.refl _)
    | succ i =>
      rw [List.getElem?_cons_succ] at h
      simp only [List.modify_succ_cons]
      exact .same (ih h)

theorem modify_big {α : Type} {f : α → α} {l : List α} {i : Nat} (h : l.length ≤ i) : l.modify i f = l := by
  induction l generalizing i with
  | nil => cases i <;> rfl
  | cons x t ih =>
    cases i with
    | zero => simp at h
    | succ i => rw [List.modify_succ_cons, ih (by simpa using h)]

/-- Someone is woken up if someone sleeps. -/
theorem notifyOne_cases (ws : List Worker) (who : Nat) :
    (notifyOne ws who = ws ∧ ∀ w ∈ ws, w.place ≠ .sleep) ∨
      (Woke ws (notifyOne ws who) ∧ ∃ w ∈ notifyOne ws who, w.place = .woken) := by
  have key : ∀ i w, ws[i]? = some w → w.place = .sleep →
      Woke ws (ws.modify i (fun w => { w with place := .woken })) ∧
      ∃ w ∈ ws.modify i (fun w => { w with place := .woken }), w.place = .woken := by
    intro i w h1 h2
    refine ⟨Woke.set_up h1 h2, ⟨.woken, w.wait⟩, ?_, rfl⟩
    refine List.mem_of_getElem? (i := i) ?_
    rw [List.getElem?_modify, h1]
    simp
  unfold notifyOne
  simp only
  split
  · next h =>
    right
    cases hw : ws[who]? with
    | none => rw [hw] at h; cases h
    | some w =>
      rw [hw] at h
      simp only [Option.map_some, Option.some.injEq] at h
      exact key who w hw (by simpa [Worker.sleeps] using h)
  · by_cases he : ∃ w ∈ ws, w.place = .sleep
    · right
      obtain ⟨w, hw, hs⟩ := he
      have hlt : ws.findIdx Worker.sleeps < ws.length := by
        rw [List.findIdx_lt_length]
        exact ⟨w, hw, by simp [Worker.sleeps, hs]⟩
      have := List.findIdx_getElem (xs := ws) (p := Worker.sleeps) (w := hlt)
      exact key _ _ (List.getElem?_eq_getElem hlt) (by simpa [Worker.sleeps] using this)
    · left
      have hn : ∀ w ∈ ws, w.place ≠ .sleep := fun w hw hs => he ⟨w, hw, hs⟩
      refine ⟨modify_big ?_, hn⟩
      refine Nat.le_of_not_lt (fun hlt => ?_)
      have := List.findIdx_getElem (xs := ws) (p := Worker.sleeps) (w := hlt)
      exact hn _ (List.getElem_mem hlt) (by simpa [Worker.sleeps] using this)

theorem notifyOne_woke (ws : List Worker) (who : Nat) : Woke ws (notifyOne ws who) := by
  rcases notifyOne_cases ws who with h | h
  · rw [h.1]; exact Woke.refl _
  · exact h.1

theorem notifyAll_woke : ∀ ws, Woke ws (notifyAll ws)
  | [] => .nil
  | w :: t => by
    have ih := notifyAll_woke t
    unfold notifyAll at ih ⊢
    rw [List.map_cons]
    split
    · next h =>
      obtain ⟨p, x⟩ := w
      have : p = .sleep := by simpa [Worker.sleeps] using h
      subst this
      exact .up ih
    · exact .same ih

theorem notifyAll_none {ws : List Worker} {w : Worker} (h : w ∈ notifyAll ws) : w.place ≠ .sleep := by
  unfold notifyAll at h
  obtain ⟨v, _, rfl⟩ := List.mem_map.1 h
  split
  · simp
  · next hs => simpa [Worker.sleeps] using hs

theorem answered_iff {p : Pool.State F L} {c : Nat} : answered p c = true ↔ Pool.Answered p.trace c := by
  unfold answered Pool.Answered
  rw [List.any_eq_true]
  constructor
  · rintro ⟨e, he, h⟩
    cases e with
    | callback d k r =>
      simp only [beq_iff_eq] at h
      subst h
      exact ⟨k, r, he⟩
    | _ => cases h
  · rintro ⟨k, r, h⟩
    exact ⟨_, h, by simp⟩

end VS.Work
