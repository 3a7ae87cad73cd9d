import Verif.Life.Model

/-!
# Reference counts are exact
-/

namespace VS.Life

/-- The references a frame will give back. -/
def Frame.refs (c : Nat) : Frame → Nat
  | .rel d => if d = c then 1 else 0
  | .dtor _ ds => ds.count c
  | .drain => 0
  | .free _ ds => ds.count c

def Frame.dtors (c : Nat) : Frame → Nat
  | .dtor d _ => if d = c then 1 else 0
  | _ => 0

def Frame.frees (c : Nat) : Frame → Nat
  | .free d _ => if d = c then 1 else 0
  | _ => 0

def Frame.drains : Frame → Nat
  | .drain => 1
  | _ => 0

def Thread.sum (f : Frame → Nat) (t : Thread) : Nat := (t.stack.map f).sum

def total (f : Thread → Nat) (ts : List Thread) : Nat := (ts.map f).sum

theorem total_mid (f : Thread → Nat) (l r : List Thread) (t : Thread) :
    total f (l ++ t :: r) = total f l + total f r + f t := by
  unfold total
  rw [List.map_append, List.sum_append, List.map_cons, List.sum_cons]
  omega

theorem total_le {f : Thread → Nat} {ts : List Thread} {t : Thread} (h : t ∈ ts) : f t ≤ total f ts := by
  obtain ⟨l, r, rfl⟩ := List.append_of_mem h
  rw [total_mid]; omega

theorem total_pos {f : Thread → Nat} : ∀ {ts : List Thread}, 0 < total f ts → ∃ t ∈ ts, 0 < f t
  | [], h => absurd h (Nat.lt_irrefl 0)
  | t :: ts, h => by
    have e : total f (t :: ts) = f t + total f ts := rfl
    by_cases ht : 0 < f t
    · exact ⟨t, List.mem_cons_self .., ht⟩
    · obtain ⟨t', h1, h2⟩ := total_pos (f := f) (ts := ts) (by omega)
      exact ⟨t', List.mem_cons_of_mem _ h1, h2⟩

theorem total_zero {f : Thread → Nat} {ts : List Thread} (h : ∀ t ∈ ts, f t = 0) : total f ts = 0 := by
  refine Nat.eq_zero_of_not_pos (fun hp => ?_)
  obtain ⟨t, h1, h2⟩ := total_pos hp
  have := h t h1
  omega

/-- A thread in a list of threads. -/
theorem get_split {ts : List Thread} {i : Nat} {t : Thread} (h : ts[i]? = some t) :
    ∃ l r, ts = l ++ t :: r ∧ ∀ t', ts.set i t' = l ++ t' :: r := by
  obtain ⟨hi, e⟩ := List.getElem?_eq_some_iff.1 h
  refine ⟨ts.take i, ts.drop (i + 1), ?_, ?_⟩
  · rw [← e, List.getElem_cons_drop, List.take_append_drop]
  · intro t'
    rw [List.set_eq_take_append_cons_drop, if_pos hi]

/-- The references held by nodes and by the data of filters. -/
def Heap.held (h : Heap) (c : Nat) : Nat :=
  sumTo (fun n => (h.node n).deps.count c + (h.node n).data.count c) h.next

/-- The filters that exist. -/
def Heap.count (h : Heap) : Nat := sumTo (fun n => if (h.node n).gone then 0 else 1) h.next

def Node.alive (n : Node) : Nat := if n.rc = 0 then 0 else 1

def Node.over (n : Node) : Nat := if n.gone then 1 else 0

/-- The bookkeeping; `R`, `A`, `Q`, `B` count over all threads the references being given back, the destructors
running, the entries of the free lists and the free functions running. -/
structure HInv (h : Heap) (R A Q B : Nat → Nat) : Prop where
  ub : h.ub = false
  refs : ∀ c, (h.node c).rc = h.ext c + h.held c + R c
  place : ∀ c < h.next, (h.node c).alive + A c + Q c + B c + (h.node c).over = 1
  fresh : ∀ c, h.next ≤ c → h.node c = Node.blank ∧ A c = 0 ∧ Q c = 0 ∧ B c = 0
  inst : h.inst = (if h.coreFreed then 0 else 1) + h.count
  core : h.coreGone = true → h.inst = 0
  deps : ∀ n, (h.node n).deps ≠ [] → (h.node n).rc ≠ 0
  order : ∀ n, ∀ d, d ∈ (h.node n).deps ∨ d ∈ (h.node n).data → d < n
  data : ∀ n, (h.node n).data ≠ [] → (h.node n).hasFree = true ∧ .freed n ∉ h.trace
  nofree : ∀ n, (h.node n).hasFree = false → Q n = 0 ∧ B n = 0
  freed : ∀ n, h.trace.count (.freed n) = if (h.node n).hasFree then B n + (h.node n).over else 0
  made : ∀ n ds xs f, .created n ds xs f ∈ h.trace → n < h.next ∧ (h.node n).hasFree = f ∧
    (∀ d ∈ ds, d ∈ (h.node n).deps ∨ (h.node n).rc = 0) ∧ (∀ d ∈ xs, d ∈ (h.node n).data ∨ .freed n ∈ h.trace)
  all : ∀ n < h.next, ∃ ds xs f, .created n ds xs f ∈ h.trace
  released : .coreReleased ∈ h.trace ↔ h.coreFreed = true
  deleted : h.trace.count .coreDeleted = if h.coreGone then 1 else 0

/-- The thread local data. -/
structure TInv (t : Thread) : Prop where
  depth : t.depth = t.sum Frame.drains
  one : t.depth ≤ 1
  list : t.list ≠ [] → t.depth = 1

def Inv (s : State) : Prop :=
  HInv s.h (fun c => total (Thread.sum (Frame.refs c)) s.ts) (fun c => total (Thread.sum (Frame.dtors c)) s.ts)
    (fun c => total (fun t => t.list.count c) s.ts) (fun c => total (Thread.sum (Frame.frees c)) s.ts) ∧
  (s.h.inst = 0 → s.h.coreGone = true) ∧ ∀ t ∈ s.ts, TInv t

theorem HInv.lt {h : Heap} {R A Q B : Nat → Nat} (hi : HInv h R A Q B) {c : Nat}
    (hc : (h.node c).rc ≠ 0 ∨ A c ≠ 0 ∨ Q c ≠ 0 ∨ B c ≠ 0) : c < h.next := by
  refine Nat.lt_of_not_le (fun hn => ?_)
  obtain ⟨h1, h2, h3, h4⟩ := hi.fresh c hn
  rw [h1] at hc
  rcases hc with hc | hc | hc | hc
  · exact hc rfl
  · exact hc h2
  · exact hc h3
  · exact hc h4

theorem count_pos {h : Heap} {c : Nat} (hc : c < h.next) (hg : (h.node c).gone = false) : 0 < h.count := by
  unfold Heap.count
  generalize h.next = n at hc
  induction n with
  | zero => omega
  | succ n ih =>
    show 0 < sumTo _ n + _
    by_cases e : c = n
    · subst e; simp [hg]
    · have := ih (by omega); omega

/-- While a filter exists the core does. -/
theorem HInv.alive {h : Heap} {R A Q B : Nat → Nat} (hi : HInv h R A Q B) {c : Nat}
    (hc : (h.node c).rc ≠ 0 ∨ A c ≠ 0 ∨ Q c ≠ 0 ∨ B c ≠ 0) :
    c < h.next ∧ (h.node c).gone = false ∧ h.coreGone = false := by
  have hlt := hi.lt hc
  have hp := hi.place c hlt
  have hg : (h.node c).gone = false := by
    cases hx : (h.node c).gone with
    | false => rfl
    | true =>
      unfold Node.over Node.alive at hp
      rw [hx] at hp
      simp only [if_true] at hp
      split at hp <;> omega
  refine ⟨hlt, hg, ?_⟩
  have := count_pos hlt hg
  cases hx : h.coreGone with
  | false => rfl
  | true =>
    have := hi.core hx
    have := hi.inst
    omega

theorem touch_eq {h : Heap} (hc : h.coreGone = false) : h.touch = h := by
  unfold Heap.touch
  rw [hc]
  rfl

theorem upd_self {α : Type} (f : Nat → α) (i : Nat) (x : α) : upd f i x i = x := by simp [upd]

theorem upd_ne {α : Type} (f : Nat → α) {i j : Nat} (x : α) (h : j ≠ i) : upd f i x j = f j := by
  simp [upd, h]

end VS.Life
