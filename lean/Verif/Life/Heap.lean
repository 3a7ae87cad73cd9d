import Verif.Life.Inv

/-!
# Each step keeps the books

One lemma for each thing a step does to the heap.
-/

namespace VS.Life

/-- One for `d = c`. -/
def ind (c d : Nat) : Nat := if d = c then 1 else 0

theorem ind_self (c : Nat) : ind c c = 1 := by simp [ind]

theorem ind_ne {c d : Nat} (h : d ≠ c) : ind c d = 0 := by simp [ind, h]

theorem held_set {h : Heap} {c : Nat} (hc : c < h.next) (n : Node) (d : Nat) :
    (h.setNode c n).held d + ((h.node c).deps.count d + (h.node c).data.count d) =
      h.held d + (n.deps.count d + n.data.count d) := by
  have := sumTo_one (f := fun n => (h.node n).deps.count d + (h.node n).data.count d)
    (f' := fun m => (upd h.node c n m).deps.count d + (upd h.node c n m).data.count d) hc
    (fun x _ hx => by simp only [upd_ne _ _ hx])
  simp only [upd_self] at this
  exact this

theorem held_same {h : Heap} {c : Nat} (hc : c < h.next) (n : Node) (h1 : n.deps = (h.node c).deps)
    (h2 : n.data = (h.node c).data) (d : Nat) : (h.setNode c n).held d = h.held d := by
  have := held_set hc n d
  rw [h1, h2] at this
  omega

theorem count_same {h : Heap} {c : Nat} (n : Node) (h1 : n.gone = (h.node c).gone) :
    (h.setNode c n).count = h.count := by
  refine sumTo_congr (fun x _ => ?_)
  show (if (upd h.node c n x).gone then 0 else 1) = _
  by_cases e : x = c
  · subst e; rw [upd_self, h1]
  · rw [upd_ne _ _ e]

theorem count_gone {h : Heap} {c : Nat} (hc : c < h.next) (hg : (h.node c).gone = false) :
    (h.setNode c { h.node c with gone := true }).count + 1 = h.count := by
  have := sumTo_one (f := fun n => if (h.node n).gone then 0 else 1)
    (f' := fun m => if (upd h.node c { h.node c with gone := true } m).gone then 0 else 1) hc
    (fun x _ hx => by simp only [upd_ne _ _ hx])
  simp only [upd_self, hg, if_true] at this
  exact this

theorem count_eq_zero {h : Heap} (hc : h.count = 0) {c : Nat} (hlt : c < h.next) : (h.node c).gone = true := by
  cases hx : (h.node c).gone with
  | true => rfl
  | false => have := count_pos hlt hx; omega

variable {h : Heap} {R A Q B : Nat → Nat}

/-- `release`, not the last reference. -/
theorem HInv.dec (hi : HInv h R A Q B) {c : Nat} {R' : Nat → Nat} (hrc : 1 < (h.node c).rc)
    (hR : ∀ d, R d = R' d + ind c d) :
    HInv (h.setNode c { h.node c with rc := (h.node c).rc - 1 }) R' A Q B := by
  have hc : c < h.next := hi.lt (Or.inl (by omega))
  generalize hn : ({ h.node c with rc := (h.node c).rc - 1 } : Node) = n
  have n1 : n.rc = (h.node c).rc - 1 := by rw [← hn]
  have n2 : n.deps = (h.node c).deps := by rw [← hn]
  have n3 : n.data = (h.node c).data := by rw [← hn]
  have n4 : n.hasFree = (h.node c).hasFree := by rw [← hn]
  have n5 : n.gone = (h.node c).gone := by rw [← hn]
  clear hn
  have hd : ∀ d, (upd h.node c n d).deps = (h.node d).deps := by
    intro d; by_cases e : d = c
    · subst e; rw [upd_self, n2]
    · rw [upd_ne _ _ e]
  have hx : ∀ d, (upd h.node c n d).data = (h.node d).data := by
    intro d; by_cases e : d = c
    · subst e; rw [upd_self, n3]
    · rw [upd_ne _ _ e]
  have hf : ∀ d, (upd h.node c n d).hasFree = (h.node d).hasFree := by
    intro d; by_cases e : d = c
    · subst e; rw [upd_self, n4]
    · rw [upd_ne _ _ e]
  have hg : ∀ d, (upd h.node c n d).over = (h.node d).over := by
    intro d; by_cases e : d = c
    · subst e; rw [upd_self]; unfold Node.over; rw [n5]
    · rw [upd_ne _ _ e]
  have ha : ∀ d, (upd h.node c n d).alive = (h.node d).alive := by
    intro d; by_cases e : d = c
    · subst e; rw [upd_self]; unfold Node.alive; rw [n1, if_neg (by omega), if_neg (by omega)]
    · rw [upd_ne _ _ e]
  have hz : ∀ d, (upd h.node c n d).rc = 0 ↔ (h.node d).rc = 0 := by
    intro d; by_cases e : d = c
    · subst e; rw [upd_self, n1]; omega
    · rw [upd_ne _ _ e]
  refine ⟨hi.ub, ?_, ?_, ?_, ?_, hi.core, ?_, ?_, ?_, ?_, ?_, ?_, hi.all, hi.released, hi.deleted⟩
  · intro d
    rw [held_same hc n n2 n3]
    have h1 := hi.refs d
    have h2 := hR d
    show (upd h.node c n d).rc = h.ext d + _ + _
    by_cases e : d = c
    · subst e; rw [upd_self, n1]; rw [ind_self] at h2; omega
    · rw [upd_ne _ _ e]; rw [ind_ne e] at h2; omega
  · intro d hd'
    show (upd h.node c n d).alive + _ + _ + _ + (upd h.node c n d).over = 1
    rw [ha, hg]; exact hi.place d hd'
  · intro d hd'
    have e : d ≠ c := by have : h.next ≤ d := hd'; omega
    show upd h.node c n d = _ ∧ _
    rw [upd_ne _ _ e]; exact hi.fresh d hd'
  · rw [count_same n n5]; exact hi.inst
  · intro d
    show (upd h.node c n d).deps ≠ [] → (upd h.node c n d).rc ≠ 0
    rw [hd, ne_eq (upd h.node c n d).rc, hz]; exact hi.deps d
  · intro d x
    show x ∈ (upd h.node c n d).deps ∨ x ∈ (upd h.node c n d).data → _
    rw [hd, hx]; exact hi.order d x
  · intro d
    show (upd h.node c n d).data ≠ [] → (upd h.node c n d).hasFree = true ∧ _
    rw [hf, hx]; exact hi.data d
  · intro d
    show (upd h.node c n d).hasFree = false → _
    rw [hf]; exact hi.nofree d
  · intro d
    show _ = if (upd h.node c n d).hasFree then B d + (upd h.node c n d).over else 0
    rw [hf, hg]; exact hi.freed d
  · intro d ds xs f hm
    show _ ∧ (upd h.node c n d).hasFree = f ∧ (∀ x ∈ ds, x ∈ (upd h.node c n d).deps ∨ (upd h.node c n d).rc = 0) ∧
      (∀ x ∈ xs, x ∈ (upd h.node c n d).data ∨ _)
    rw [hf, hd, hx]
    simp only [hz]
    exact hi.made d ds xs f hm

/-- `release`, the last reference. -/
theorem HInv.last (hi : HInv h R A Q B) {c : Nat} {R' A' : Nat → Nat} (hrc : (h.node c).rc = 1)
    (hR : ∀ d, R d + (h.node c).deps.count d = R' d + ind c d) (hA : ∀ d, A' d = A d + ind c d) :
    HInv (h.setNode c { h.node c with rc := 0, deps := [] }) R' A' Q B := by
  have hc : c < h.next := hi.lt (Or.inl (by omega))
  generalize hn : ({ h.node c with rc := 0, deps := [] } : Node) = n
  have n1 : n.rc = 0 := by rw [← hn]
  have n2 : n.deps = [] := by rw [← hn]
  have n3 : n.data = (h.node c).data := by rw [← hn]
  have n4 : n.hasFree = (h.node c).hasFree := by rw [← hn]
  have n5 : n.gone = (h.node c).gone := by rw [← hn]
  clear hn
  have hx : ∀ d, (upd h.node c n d).data = (h.node d).data := by
    intro d; by_cases e : d = c
    · subst e; rw [upd_self, n3]
    · rw [upd_ne _ _ e]
  have hf : ∀ d, (upd h.node c n d).hasFree = (h.node d).hasFree := by
    intro d; by_cases e : d = c
    · subst e; rw [upd_self, n4]
    · rw [upd_ne _ _ e]
  have hg : ∀ d, (upd h.node c n d).over = (h.node d).over := by
    intro d; by_cases e : d = c
    · subst e; rw [upd_self]; unfold Node.over; rw [n5]
    · rw [upd_ne _ _ e]
  refine ⟨hi.ub, ?_, ?_, ?_, ?_, hi.core, ?_, ?_, ?_, ?_, ?_, ?_, hi.all, hi.released, hi.deleted⟩
  · intro d
    have h0 := held_set hc n d
    rw [n2, n3] at h0
    simp only [List.count_nil] at h0
    have h1 := hi.refs d
    have h2 := hR d
    show (upd h.node c n d).rc = h.ext d + _ + _
    by_cases e : d = c
    · subst e; rw [upd_self, n1]; rw [ind_self] at h2; omega
    · rw [upd_ne _ _ e]; rw [ind_ne e] at h2; omega
  · intro d hd'
    have h1 := hi.place d hd'
    have h2 := hA d
    show (upd h.node c n d).alive + _ + _ + _ + (upd h.node c n d).over = 1
    rw [hg]
    by_cases e : d = c
    · subst e
      rw [upd_self]
      unfold Node.alive at h1 ⊢
      rw [n1, if_pos rfl]
      rw [hrc, if_neg (by omega)] at h1
      rw [ind_self] at h2
      omega
    · rw [upd_ne _ _ e]
      rw [ind_ne e] at h2
      omega
  · intro d hd'
    have e : d ≠ c := by have : h.next ≤ d := hd'; omega
    show upd h.node c n d = _ ∧ _
    rw [upd_ne _ _ e, hA, ind_ne e]; exact hi.fresh d hd'
  · rw [count_same n n5]; exact hi.inst
  · intro d
    show (upd h.node c n d).deps ≠ [] → (upd h.node c n d).rc ≠ 0
    by_cases e : d = c
    · subst e; rw [upd_self, n2]; intro he; exact absurd rfl he
    · rw [upd_ne _ _ e]; exact hi.deps d
  · intro d x
    show x ∈ (upd h.node c n d).deps ∨ x ∈ (upd h.node c n d).data → _
    by_cases e : d = c
    · subst e; rw [upd_self, n2, n3]
      rintro (hm | hm)
      · cases hm
      · exact hi.order d x (Or.inr hm)
    · rw [upd_ne _ _ e]; exact hi.order d x
  · intro d
    show (upd h.node c n d).data ≠ [] → (upd h.node c n d).hasFree = true ∧ _
    rw [hf, hx]; exact hi.data d
  · intro d
    show (upd h.node c n d).hasFree = false → _
    rw [hf]; exact hi.nofree d
  · intro d
    show _ = if (upd h.node c n d).hasFree then B d + (upd h.node c n d).over else 0
    rw [hf, hg]; exact hi.freed d
  · intro d ds xs f hm
    show _ ∧ (upd h.node c n d).hasFree = f ∧ (∀ x ∈ ds, x ∈ (upd h.node c n d).deps ∨ (upd h.node c n d).rc = 0) ∧
      (∀ x ∈ xs, x ∈ (upd h.node c n d).data ∨ _)
    rw [hf, hx]
    obtain ⟨h1, h2, h3, h4⟩ := hi.made d ds xs f hm
    refine ⟨h1, h2, ?_, h4⟩
    intro x hx'
    by_cases e : d = c
    · subst e; rw [upd_self, n1]; exact Or.inr rfl
    · rw [upd_ne _ _ e]; exact h3 x hx'

/-- The end of a destructor when the filter has a free function. -/
theorem HInv.enlist (hi : HInv h R A Q B) {c : Nat} {A' Q' : Nat → Nat} (hc : (h.node c).hasFree = true)
    (hA : ∀ d, A d = A' d + ind c d) (hQ : ∀ d, Q' d = Q d + ind c d) : HInv h R A' Q' B := by
  have hAc := hA c
  rw [ind_self] at hAc
  have hlt : c < h.next := hi.lt (Or.inr (Or.inl (by omega)))
  refine ⟨hi.ub, hi.refs, ?_, ?_, hi.inst, hi.core, hi.deps, hi.order, hi.data, ?_, hi.freed, hi.made, hi.all,
    hi.released, hi.deleted⟩
  · intro d hd
    have := hi.place d hd
    have := hA d
    have := hQ d
    omega
  · intro d hd
    have e : d ≠ c := by omega
    have h1 := hA d
    have h2 := hQ d
    rw [ind_ne e] at h1 h2
    obtain ⟨g1, g2, g3, g4⟩ := hi.fresh d hd
    exact ⟨g1, by omega, by omega, g4⟩
  · intro d hd
    have e : d ≠ c := by rintro rfl; rw [hc] at hd; cases hd
    have h2 := hQ d
    rw [ind_ne e] at h2
    obtain ⟨g1, g2⟩ := hi.nofree d hd
    exact ⟨by omega, g2⟩

/-- The free function is called. -/
theorem HInv.call (hi : HInv h R A Q B) {c : Nat} {R' Q' B' : Nat → Nat}
    (hR : ∀ d, R' d = R d + (h.node c).data.count d) (hQ : ∀ d, Q d = Q' d + ind c d)
    (hB : ∀ d, B' d = B d + ind c d) :
    HInv ((h.setNode c { h.node c with data := [] }).emit (.freed c)) R' A Q' B' := by
  have hQc := hQ c
  rw [ind_self] at hQc
  have hc : c < h.next := hi.lt (Or.inr (Or.inr (Or.inl (by omega))))
  have hfree : (h.node c).hasFree = true := by
    cases hx : (h.node c).hasFree with
    | true => rfl
    | false => have := (hi.nofree c hx).1; omega
  generalize hn : ({ h.node c with data := [] } : Node) = n
  have n1 : n.rc = (h.node c).rc := by rw [← hn]
  have n2 : n.deps = (h.node c).deps := by rw [← hn]
  have n3 : n.data = [] := by rw [← hn]
  have n4 : n.hasFree = (h.node c).hasFree := by rw [← hn]
  have n5 : n.gone = (h.node c).gone := by rw [← hn]
  clear hn
  have hd : ∀ d, (upd h.node c n d).deps = (h.node d).deps := by
    intro d; by_cases e : d = c
    · subst e; rw [upd_self, n2]
    · rw [upd_ne _ _ e]
  have hf : ∀ d, (upd h.node c n d).hasFree = (h.node d).hasFree := by
    intro d; by_cases e : d = c
    · subst e; rw [upd_self, n4]
    · rw [upd_ne _ _ e]
  have hg : ∀ d, (upd h.node c n d).over = (h.node d).over := by
    intro d; by_cases e : d = c
    · subst e; rw [upd_self]; unfold Node.over; rw [n5]
    · rw [upd_ne _ _ e]
  have hr : ∀ d, (upd h.node c n d).rc = (h.node d).rc := by
    intro d; by_cases e : d = c
    · subst e; rw [upd_self, n1]
    · rw [upd_ne _ _ e]
  have hmem : ∀ e : Event, e ∈ h.trace ++ [.freed c] ↔ e ∈ h.trace ∨ e = .freed c := by
    intro e; rw [List.mem_append, List.mem_singleton]
  refine ⟨hi.ub, ?_, ?_, ?_, ?_, hi.core, ?_, ?_, ?_, ?_, ?_, ?_, ?_, ?_, ?_⟩
  · intro d
    have h0 := held_set hc n d
    rw [n2, n3] at h0
    simp only [List.count_nil] at h0
    have h1 := hi.refs d
    have h2 := hR d
    show (upd h.node c n d).rc = h.ext d + (h.setNode c n).held d + _
    rw [hr]
    omega
  · intro d hd'
    have h1 := hi.place d hd'
    have h2 := hQ d
    have h3 := hB d
    show (upd h.node c n d).alive + _ + _ + _ + (upd h.node c n d).over = 1
    have : (upd h.node c n d).alive = (h.node d).alive := by unfold Node.alive; rw [hr]
    rw [hg, this]
    omega
  · intro d hd'
    have e : d ≠ c := by have : h.next ≤ d := hd'; omega
    have h2 := hQ d
    have h3 := hB d
    rw [ind_ne e] at h2 h3
    show upd h.node c n d = _ ∧ _
    rw [upd_ne _ _ e]
    obtain ⟨g1, g2, g3, g4⟩ := hi.fresh d hd'
    exact ⟨g1, g2, by omega, by omega⟩
  · show _ = _ + (h.setNode c n).count
    rw [count_same n n5]; exact hi.inst
  · intro d
    show (upd h.node c n d).deps ≠ [] → (upd h.node c n d).rc ≠ 0
    rw [hd, hr]; exact hi.deps d
  · intro d x
    show x ∈ (upd h.node c n d).deps ∨ x ∈ (upd h.node c n d).data → _
    rw [hd]
    by_cases e : d = c
    · subst e; rw [upd_self, n3]
      rintro (hm | hm)
      · exact hi.order d x (Or.inl hm)
      · cases hm
    · rw [upd_ne _ _ e]; exact hi.order d x
  · intro d
    show (upd h.node c n d).data ≠ [] → (upd h.node c n d).hasFree = true ∧ _ ∉ h.trace ++ [.freed c]
    rw [hf, hmem]
    by_cases e : d = c
    · subst e; rw [upd_self, n3]; intro he; exact absurd rfl he
    · rw [upd_ne _ _ e]
      intro he
      obtain ⟨g1, g2⟩ := hi.data d he
      refine ⟨g1, ?_⟩
      rintro (hm | hm)
      · exact g2 hm
      · injection hm with hm; exact e hm
  · intro d
    show (upd h.node c n d).hasFree = false → _
    rw [hf]
    intro hd'
    have e : d ≠ c := by rintro rfl; rw [hfree] at hd'; cases hd'
    have h2 := hQ d
    have h3 := hB d
    rw [ind_ne e] at h2 h3
    obtain ⟨g1, g2⟩ := hi.nofree d hd'
    exact ⟨by omega, by omega⟩
  · intro d
    show (h.trace ++ [Event.freed c]).count (.freed d) =
      if (upd h.node c n d).hasFree then B' d + (upd h.node c n d).over else 0
    rw [hf, hg, List.count_append, hi.freed d, hB d]
    by_cases e : d = c
    · subst e; rw [hfree, ind_self]; simp; omega
    · rw [ind_ne e, List.count_eq_zero.2 (fun hm => e (by
        have := List.mem_singleton.1 hm; injection this))]
      rfl
  · intro d ds xs f hm
    show _ ∧ (upd h.node c n d).hasFree = f ∧ (∀ x ∈ ds, x ∈ (upd h.node c n d).deps ∨ (upd h.node c n d).rc = 0) ∧
      (∀ x ∈ xs, x ∈ (upd h.node c n d).data ∨ _ ∈ h.trace ++ [.freed c])
    rw [hf, hd, hr, hmem]
    have hm' : Event.created d ds xs f ∈ h.trace := by
      rcases (hmem _).1 hm with hm | hm
      · exact hm
      · cases hm
    obtain ⟨h1, h2, h3, h4⟩ := hi.made d ds xs f hm'
    refine ⟨h1, h2, h3, ?_⟩
    intro x hx'
    by_cases e : d = c
    · subst e; exact Or.inr (Or.inr rfl)
    · rw [upd_ne _ _ e]
      rcases h4 x hx' with g | g
      · exact Or.inl g
      · exact Or.inr (Or.inl g)
  · intro d hd'
    obtain ⟨ds, xs, f, hm⟩ := hi.all d hd'
    exact ⟨ds, xs, f, (hmem _).2 (Or.inl hm)⟩
  · show _ ∈ h.trace ++ [.freed c] ↔ h.coreFreed = true
    rw [hmem, ← hi.released]
    constructor
    · rintro (hm | hm)
      · exact hm
      · cases hm
    · exact Or.inl
  · show (h.trace ++ [Event.freed c]).count _ = _
    rw [List.count_append, hi.deleted]
    rfl

/-- The instance is gone; the count is kept by the caller. -/
theorem HInv.over (hi : HInv h R A Q B) {c : Nat} {A' B' : Nat → Nat} (hg : (h.node c).gone = false)
    (hlt : c < h.next) (hA : ∀ d, A d + B d = A' d + B' d + ind c d)
    (h1 : (h.node c).hasFree = true → ∀ d, B d = B' d + ind c d)
    (h2 : (h.node c).hasFree = false → ∀ d, B d = B' d) (hcore : h.coreGone = false) :
    HInv { h.setNode c { h.node c with gone := true } with inst := h.inst - 1 } R A' Q B' := by
  have hcount := count_gone hlt hg
  have hover : (h.node c).over = 0 := by unfold Node.over; rw [hg]; rfl
  generalize hn : ({ h.node c with gone := true } : Node) = n at hcount ⊢
  have n1 : n.rc = (h.node c).rc := by rw [← hn]
  have n2 : n.deps = (h.node c).deps := by rw [← hn]
  have n3 : n.data = (h.node c).data := by rw [← hn]
  have n4 : n.hasFree = (h.node c).hasFree := by rw [← hn]
  have n5 : n.over = 1 := by rw [← hn]; rfl
  clear hn
  have hd : ∀ d, (upd h.node c n d).deps = (h.node d).deps := by
    intro d; by_cases e : d = c
    · subst e; rw [upd_self, n2]
    · rw [upd_ne _ _ e]
  have hx : ∀ d, (upd h.node c n d).data = (h.node d).data := by
    intro d; by_cases e : d = c
    · subst e; rw [upd_self, n3]
    · rw [upd_ne _ _ e]
  have hf : ∀ d, (upd h.node c n d).hasFree = (h.node d).hasFree := by
    intro d; by_cases e : d = c
    · subst e; rw [upd_self, n4]
    · rw [upd_ne _ _ e]
  have ho : ∀ d, (upd h.node c n d).over = (h.node d).over + ind c d := by
    intro d; by_cases e : d = c
    · subst e; rw [upd_self, n5, hover, ind_self]
    · rw [upd_ne _ _ e, ind_ne e]; rfl
  have hr : ∀ d, (upd h.node c n d).rc = (h.node d).rc := by
    intro d; by_cases e : d = c
    · subst e; rw [upd_self, n1]
    · rw [upd_ne _ _ e]
  refine ⟨hi.ub, ?_, ?_, ?_, ?_, ?_, ?_, ?_, ?_, ?_, ?_, ?_, hi.all, hi.released, hi.deleted⟩
  · intro d
    show (upd h.node c n d).rc = h.ext d + (h.setNode c n).held d + R d
    rw [hr, held_same hlt n n2 n3]
    exact hi.refs d
  · intro d hd'
    have g1 := hi.place d hd'
    have g2 := hA d
    show (upd h.node c n d).alive + _ + _ + _ + (upd h.node c n d).over = 1
    have : (upd h.node c n d).alive = (h.node d).alive := by unfold Node.alive; rw [hr]
    rw [ho, this]
    omega
  · intro d hd'
    have e : d ≠ c := by have : h.next ≤ d := hd'; omega
    have g := hA d
    rw [ind_ne e] at g
    show upd h.node c n d = _ ∧ _
    rw [upd_ne _ _ e]
    obtain ⟨g1, g2, g3, g4⟩ := hi.fresh d hd'
    exact ⟨g1, by omega, g3, by omega⟩
  · show h.inst - 1 = (if h.coreFreed then 0 else 1) + (h.setNode c n).count
    have := hi.inst
    omega
  · intro hx'
    have : h.coreGone = true := hx'
    rw [hcore] at this
    cases this
  · intro d
    show (upd h.node c n d).deps ≠ [] → (upd h.node c n d).rc ≠ 0
    rw [hd, hr]; exact hi.deps d
  · intro d x
    show x ∈ (upd h.node c n d).deps ∨ x ∈ (upd h.node c n d).data → _
    rw [hd, hx]; exact hi.order d x
  · intro d
    show (upd h.node c n d).data ≠ [] → (upd h.node c n d).hasFree = true ∧ _
    rw [hf, hx]; exact hi.data d
  · intro d
    show (upd h.node c n d).hasFree = false → _
    rw [hf]
    intro hd'
    obtain ⟨g1, g2⟩ := hi.nofree d hd'
    refine ⟨g1, ?_⟩
    cases hcf : (h.node c).hasFree with
    | true => have := h1 hcf d; omega
    | false => have := h2 hcf d; omega
  · intro d
    show _ = if (upd h.node c n d).hasFree then B' d + (upd h.node c n d).over else 0
    rw [hf, ho]
    have g := hi.freed d
    show h.trace.count _ = _
    rw [g]
    cases hcf : (h.node c).hasFree with
    | true => have := h1 hcf d; split <;> omega
    | false =>
      have g2 := h2 hcf d
      by_cases e : d = c
      · subst e; rw [hcf]; rfl
      · rw [ind_ne e]; split <;> omega
  · intro d ds xs f hm
    show _ ∧ (upd h.node c n d).hasFree = f ∧ (∀ x ∈ ds, x ∈ (upd h.node c n d).deps ∨ (upd h.node c n d).rc = 0) ∧
      (∀ x ∈ xs, x ∈ (upd h.node c n d).data ∨ _)
    rw [hf, hd, hx, hr]
    exact hi.made d ds xs f hm

theorem emit_mem {tr : List Event} {e e' : Event} : e ∈ tr ++ [e'] ↔ e ∈ tr ∨ e = e' := by
  rw [List.mem_append, List.mem_singleton]

/-- The core is deleted. -/
theorem HInv.delete (hi : HInv h R A Q B) (h0 : h.inst = 0) (hcore : h.coreGone = false) :
    HInv { h with coreGone := true, trace := h.trace ++ [Event.coreDeleted] } R A Q B := by
  have hmem : ∀ e : Event, e ≠ .coreDeleted → (e ∈ h.trace ++ [.coreDeleted] ↔ e ∈ h.trace) := by
    intro e he; rw [emit_mem]
    exact ⟨fun hm => hm.elim id (fun x => absurd x he), Or.inl⟩
  refine ⟨hi.ub, hi.refs, hi.place, hi.fresh, hi.inst, fun _ => h0, hi.deps, hi.order, ?_, hi.nofree, ?_, ?_, ?_,
    ?_, ?_⟩
  · intro n hn
    show _ ∧ _ ∉ h.trace ++ [Event.coreDeleted]
    rw [hmem _ (by intro he; cases he)]
    exact hi.data n hn
  · intro n
    show (h.trace ++ [Event.coreDeleted]).count _ = _
    rw [List.count_append, hi.freed n]
    rfl
  · intro n ds xs f hm
    show _ ∧ _ ∧ _ ∧ ∀ d ∈ xs, _ ∨ _ ∈ h.trace ++ [Event.coreDeleted]
    rw [hmem (.freed n) (by intro he; cases he)]
    exact hi.made n ds xs f ((hmem _ (by intro he; cases he)).1 hm)
  · intro n hn
    obtain ⟨ds, xs, f, hm⟩ := hi.all n hn
    exact ⟨ds, xs, f, (hmem _ (by intro he; cases he)).2 hm⟩
  · show _ ∈ h.trace ++ [Event.coreDeleted] ↔ _
    rw [hmem _ (by intro he; cases he)]
    exact hi.released
  · show (h.trace ++ [Event.coreDeleted]).count _ = 1
    rw [List.count_append, hi.deleted, hcore]
    rfl

/-- `filterInstanceDestroyed`. -/
theorem HInv.decInst (hcore : h.coreGone = false) (hi : HInv { h with inst := h.inst - 1 } R A Q B) :
    HInv h.decInst R A Q B ∧ (h.decInst.inst = 0 → h.decInst.coreGone = true) := by
  unfold Heap.decInst
  rw [if_neg (by rw [hcore]; simp)]
  by_cases h0 : h.inst - 1 = 0
  · rw [if_pos h0]
    exact ⟨hi.delete h0 hcore, fun _ => rfl⟩
  · rw [if_neg h0]
    exact ⟨hi, fun he => absurd he h0⟩

theorem HInv.instGone (hi : HInv h R A Q B) {c : Nat} {A' B' : Nat → Nat} (hg : (h.node c).gone = false)
    (hlt : c < h.next) (hA : ∀ d, A d + B d = A' d + B' d + ind c d)
    (h1 : (h.node c).hasFree = true → ∀ d, B d = B' d + ind c d)
    (h2 : (h.node c).hasFree = false → ∀ d, B d = B' d) (hcore : h.coreGone = false) :
    HInv (h.instGone c) R A' Q B' ∧ ((h.instGone c).inst = 0 → (h.instGone c).coreGone = true) :=
  HInv.decInst (h := h.setNode c { h.node c with gone := true }) hcore (hi.over hg hlt hA h1 h2 hcore)

/-- `freeCore`. -/
theorem HInv.freeCore (hi : HInv h R A Q B) (hf : h.coreFreed = false) :
    HInv ({ h with coreFreed := true, trace := h.trace ++ [Event.coreReleased] } : Heap).decInst R A Q B ∧
    (({ h with coreFreed := true, trace := h.trace ++ [Event.coreReleased] } : Heap).decInst.inst = 0 →
      ({ h with coreFreed := true, trace := h.trace ++ [Event.coreReleased] } : Heap).decInst.coreGone = true) := by
  have hinst := hi.inst
  rw [hf] at hinst
  simp only [Bool.false_eq_true, if_false] at hinst
  have hcore : h.coreGone = false := by
    cases hx : h.coreGone with
    | false => rfl
    | true => have := hi.core hx; omega
  refine HInv.decInst hcore ?_
  have hmem : ∀ e : Event, e ≠ .coreReleased → (e ∈ h.trace ++ [.coreReleased] ↔ e ∈ h.trace) := by
    intro e he; rw [emit_mem]
    exact ⟨fun hm => hm.elim id (fun x => absurd x he), Or.inl⟩
  refine ⟨hi.ub, hi.refs, hi.place, hi.fresh, ?_, ?_, hi.deps, hi.order, ?_, hi.nofree, ?_, ?_, ?_, ?_, ?_⟩
  · show h.inst - 1 = 0 + h.count
    omega
  · intro hx
    have : h.coreGone = true := hx
    rw [hcore] at this
    cases this
  · intro n hn
    show _ ∧ _ ∉ h.trace ++ [Event.coreReleased]
    rw [hmem _ (by intro he; cases he)]
    exact hi.data n hn
  · intro n
    show (h.trace ++ [Event.coreReleased]).count _ = _
    rw [List.count_append, hi.freed n]
    rfl
  · intro n ds xs f hm
    show _ ∧ _ ∧ _ ∧ ∀ d ∈ xs, _ ∨ _ ∈ h.trace ++ [Event.coreReleased]
    rw [hmem (.freed n) (by intro he; cases he)]
    exact hi.made n ds xs f ((hmem _ (by intro he; cases he)).1 hm)
  · intro n hn
    obtain ⟨ds, xs, f, hm⟩ := hi.all n hn
    exact ⟨ds, xs, f, (hmem _ (by intro he; cases he)).2 hm⟩
  · show _ ∈ h.trace ++ [Event.coreReleased] ↔ _
    rw [emit_mem]
    exact ⟨fun _ => rfl, fun _ => Or.inr rfl⟩
  · show (h.trace ++ [Event.coreReleased]).count _ = _
    rw [List.count_append, hi.deleted]
    rfl

/-- A call of `freeNode` by user code. -/
theorem HInv.drop (hi : HInv h R A Q B) {c : Nat} {R' : Nat → Nat} (he : 0 < h.ext c)
    (hR : ∀ d, R' d = R d + ind c d) : HInv { h with ext := upd h.ext c (h.ext c - 1) } R' A Q B := by
  refine ⟨hi.ub, ?_, hi.place, hi.fresh, hi.inst, hi.core, hi.deps, hi.order, hi.data, hi.nofree, hi.freed, hi.made,
    hi.all, hi.released, hi.deleted⟩
  intro d
  have h1 := hi.refs d
  have h2 := hR d
  show _ = upd h.ext c (h.ext c - 1) d + h.held d + _
  by_cases e : d = c
  · subst e; rw [upd_self]; rw [ind_self] at h2; show (h.node d).rc = _; omega
  · rw [upd_ne _ _ e]; rw [ind_ne e] at h2; show (h.node d).rc = _; omega

/-- `addNodeRef` -/
theorem HInv.addRef (hi : HInv h R A Q B) {c : Nat} (he : 0 < h.ext c) :
    HInv { h.setNode c { h.node c with rc := (h.node c).rc + 1 } with ext := upd h.ext c (h.ext c + 1) } R A Q B := by
  have hrc : (h.node c).rc ≠ 0 := by have := hi.refs c; omega
  have hc : c < h.next := hi.lt (Or.inl hrc)
  generalize hn : ({ h.node c with rc := (h.node c).rc + 1 } : Node) = n
  have n1 : n.rc = (h.node c).rc + 1 := by rw [← hn]
  have n2 : n.deps = (h.node c).deps := by rw [← hn]
  have n3 : n.data = (h.node c).data := by rw [← hn]
  have n4 : n.hasFree = (h.node c).hasFree := by rw [← hn]
  have n5 : n.gone = (h.node c).gone := by rw [← hn]
  clear hn
  have hd : ∀ d, (upd h.node c n d).deps = (h.node d).deps := by
    intro d; by_cases e : d = c
    · subst e; rw [upd_self, n2]
    · rw [upd_ne _ _ e]
  have hx : ∀ d, (upd h.node c n d).data = (h.node d).data := by
    intro d; by_cases e : d = c
    · subst e; rw [upd_self, n3]
    · rw [upd_ne _ _ e]
  have hf : ∀ d, (upd h.node c n d).hasFree = (h.node d).hasFree := by
    intro d; by_cases e : d = c
    · subst e; rw [upd_self, n4]
    · rw [upd_ne _ _ e]
  have hg : ∀ d, (upd h.node c n d).over = (h.node d).over := by
    intro d; by_cases e : d = c
    · subst e; rw [upd_self]; unfold Node.over; rw [n5]
    · rw [upd_ne _ _ e]
  have ha : ∀ d, (upd h.node c n d).alive = (h.node d).alive := by
    intro d; by_cases e : d = c
    · subst e; rw [upd_self]; unfold Node.alive; rw [n1, if_neg (by omega), if_neg (by omega)]
    · rw [upd_ne _ _ e]
  have hz : ∀ d, (upd h.node c n d).rc = 0 ↔ (h.node d).rc = 0 := by
    intro d; by_cases e : d = c
    · subst e; rw [upd_self, n1]; omega
    · rw [upd_ne _ _ e]
  refine ⟨hi.ub, ?_, ?_, ?_, ?_, hi.core, ?_, ?_, ?_, ?_, ?_, ?_, hi.all, hi.released, hi.deleted⟩
  · intro d
    have h1 := hi.refs d
    show (upd h.node c n d).rc = upd h.ext c (h.ext c + 1) d + (h.setNode c n).held d + _
    rw [held_same hc n n2 n3]
    by_cases e : d = c
    · subst e; rw [upd_self, upd_self, n1]; omega
    · rw [upd_ne _ _ e, upd_ne _ _ e]; omega
  · intro d hd'
    show (upd h.node c n d).alive + _ + _ + _ + (upd h.node c n d).over = 1
    rw [ha, hg]; exact hi.place d hd'
  · intro d hd'
    have e : d ≠ c := by have : h.next ≤ d := hd'; omega
    show upd h.node c n d = _ ∧ _
    rw [upd_ne _ _ e]; exact hi.fresh d hd'
  · show _ = _ + (h.setNode c n).count
    rw [count_same n n5]; exact hi.inst
  · intro d
    show (upd h.node c n d).deps ≠ [] → (upd h.node c n d).rc ≠ 0
    rw [hd, ne_eq (upd h.node c n d).rc, hz]; exact hi.deps d
  · intro d x
    show x ∈ (upd h.node c n d).deps ∨ x ∈ (upd h.node c n d).data → _
    rw [hd, hx]; exact hi.order d x
  · intro d
    show (upd h.node c n d).data ≠ [] → (upd h.node c n d).hasFree = true ∧ _
    rw [hf, hx]; exact hi.data d
  · intro d
    show (upd h.node c n d).hasFree = false → _
    rw [hf]; exact hi.nofree d
  · intro d
    show _ = if (upd h.node c n d).hasFree then B d + (upd h.node c n d).over else 0
    rw [hf, hg]; exact hi.freed d
  · intro d ds xs f hm
    show _ ∧ (upd h.node c n d).hasFree = f ∧ (∀ x ∈ ds, x ∈ (upd h.node c n d).deps ∨ (upd h.node c n d).rc = 0) ∧
      (∀ x ∈ xs, x ∈ (upd h.node c n d).data ∨ _)
    rw [hf, hd, hx]
    simp only [hz]
    exact hi.made d ds xs f hm

/-- A filter is created. -/
theorem HInv.create (hi : HInv h R A Q B) {deps data : List Nat} {f : Bool} (hcf : h.coreFreed = false)
    (hdeps : ∀ d ∈ deps, 0 < h.ext d) (hdata : ∀ d ∈ data, data.count d ≤ h.ext d) (hf : f = false → data = []) :
    HInv (h.create deps data f) R A Q B := by
  have hext : ∀ d, 0 < h.ext d → d < h.next ∧ (h.node d).rc ≠ 0 := by
    intro d hd
    have : (h.node d).rc ≠ 0 := by have := hi.refs d; omega
    exact ⟨hi.lt (Or.inl this), this⟩
  have hdeps' : ∀ d ∈ deps, d < h.next := fun d hd => (hext d (hdeps d hd)).1
  have hdata' : ∀ d ∈ data, 0 < h.ext d := fun d hd => by
    have h1 := hdata d hd
    have h2 := List.count_pos_iff.2 hd
    omega
  have hdle : ∀ d, data.count d ≤ h.ext d := by
    intro d
    by_cases hm : d ∈ data
    · exact hdata d hm
    · rw [List.count_eq_zero.2 hm]; exact Nat.zero_le _
  obtain ⟨hb, hA, hQ, hB⟩ := hi.fresh h.next (Nat.le_refl _)
  have hcore : h.coreGone = false := by
    cases hx : h.coreGone with
    | false => rfl
    | true =>
      have h1 := hi.core hx
      have h2 := hi.inst
      rw [hcf] at h2
      simp only [Bool.false_eq_true, if_false] at h2
      omega
  generalize hs : h.create deps data f = s
  have s1 : s.next = h.next + 1 := by rw [← hs]; rfl
  have s2 : s.node h.next = { rc := 1, deps := deps, data := data, hasFree := f, gone := false } := by
    rw [← hs]; simp [Heap.create]
  have s3 : ∀ n, n ≠ h.next → s.node n = { h.node n with rc := (h.node n).rc + deps.count n } := by
    intro n hn; rw [← hs]; simp [Heap.create, hn]
  have s4 : s.ext h.next = 1 := by rw [← hs]; simp [Heap.create]
  have s5 : ∀ n, n ≠ h.next → s.ext n = h.ext n - data.count n := by
    intro n hn; rw [← hs]; simp [Heap.create, hn]
  have s6 : s.inst = h.inst + 1 := by rw [← hs]; rfl
  have s7 : s.trace = h.trace ++ [.created h.next deps data f] := by rw [← hs]; rfl
  have s8 : s.coreFreed = h.coreFreed := by rw [← hs]; rfl
  have s9 : s.coreGone = h.coreGone := by rw [← hs]; rfl
  have s10 : s.ub = h.ub := by rw [← hs]; rfl
  clear hs
  have hheld : ∀ d, s.held d = h.held d + (deps.count d + data.count d) := by
    intro d
    unfold Heap.held
    rw [s1]
    show sumTo _ h.next + ((s.node h.next).deps.count d + (s.node h.next).data.count d) = _
    rw [s2]
    congr 1
    refine sumTo_congr (fun x hx => ?_)
    rw [s3 x (by omega)]
  have hcount : s.count = h.count + 1 := by
    unfold Heap.count
    rw [s1]
    show sumTo _ h.next + (if (s.node h.next).gone then 0 else 1) = _
    rw [s2]
    congr 1
    refine sumTo_congr (fun x hx => ?_)
    rw [s3 x (by omega)]
  have hne : ∀ e : Event, (∀ n ds xs g, e ≠ .created n ds xs g) → (e ∈ s.trace ↔ e ∈ h.trace) := by
    intro e he; rw [s7, emit_mem]
    exact ⟨fun hm => hm.elim id (fun x => absurd x (he _ _ _ _)), Or.inl⟩
  have hcnt : ∀ e : Event, (∀ n ds xs g, e ≠ .created n ds xs g) → s.trace.count e = h.trace.count e := by
    intro e he
    have hz : [Event.created h.next deps data f].count e = 0 :=
      List.count_eq_zero.2 (fun hm => he _ _ _ _ (List.mem_singleton.1 hm))
    rw [s7, List.count_append, hz]
    rfl
  refine ⟨by rw [s10]; exact hi.ub, ?_, ?_, ?_, ?_, ?_, ?_, ?_, ?_, ?_, ?_, ?_, ?_, ?_, ?_⟩
  · intro d
    rw [hheld]
    have h1 := hi.refs d
    by_cases e : d = h.next
    · subst e
      rw [s2, s4]
      have e1 : deps.count h.next = 0 := List.count_eq_zero.2 (fun hm => by have := hdeps' _ hm; omega)
      have e2 : data.count h.next = 0 := List.count_eq_zero.2 (fun hm => by
        have := (hext _ (hdata' _ hm)).1; omega)
      rw [hb] at h1
      have h1' : 0 = h.ext h.next + h.held h.next + R h.next := h1
      show 1 = _
      omega
    · rw [s3 d e, s5 d e]
      have := hdle d
      show (h.node d).rc + deps.count d = _
      omega
  · intro d hd
    rw [s1] at hd
    by_cases e : d = h.next
    · subst e
      rw [s2, hA, hQ, hB]
      rfl
    · have hd' : d < h.next := by omega
      have h1 := hi.place d hd'
      have h2 : (s.node d).alive = (h.node d).alive := by
        rw [s3 d e]
        show (if (h.node d).rc + deps.count d = 0 then 0 else 1) = if (h.node d).rc = 0 then 0 else 1
        by_cases hm : d ∈ deps
        · have := (hext d (hdeps d hm)).2
          rw [if_neg this, if_neg (by omega)]
        · rw [List.count_eq_zero.2 hm]; rfl
      have h3 : (s.node d).over = (h.node d).over := by rw [s3 d e]; rfl
      omega
  · intro d hd
    rw [s1] at hd
    obtain ⟨g1, g2⟩ := hi.fresh d (by omega)
    refine ⟨?_, g2⟩
    rw [s3 d (by omega), g1, List.count_eq_zero.2 (fun hm => by have := hdeps' _ hm; omega)]
    rfl
  · rw [s6, s8, hcount, hi.inst]
    omega
  · rw [s9, hcore]
    intro hx
    cases hx
  · intro n
    by_cases e : n = h.next
    · subst e; rw [s2]; intro _ hx; cases hx
    · rw [s3 n e]
      intro hn
      have := hi.deps n hn
      show (h.node n).rc + deps.count n ≠ 0
      omega
  · intro n x
    by_cases e : n = h.next
    · subst e; rw [s2]
      rintro (hm | hm)
      · exact hdeps' x hm
      · exact (hext x (hdata' x hm)).1
    · rw [s3 n e]; exact hi.order n x
  · intro n
    rw [hne _ (by intro _ _ _ _ he; cases he)]
    by_cases e : n = h.next
    · subst e; rw [s2]
      intro hn
      refine ⟨?_, ?_⟩
      · cases f with
        | true => rfl
        | false => exact absurd (hf rfl) hn
      · have := hi.freed h.next
        rw [hb] at this
        exact List.count_eq_zero.1 this
    · rw [s3 n e]; exact hi.data n
  · intro n
    by_cases e : n = h.next
    · subst e; intro _; exact ⟨hQ, hB⟩
    · rw [s3 n e]; exact hi.nofree n
  · intro n
    rw [hcnt _ (by intro _ _ _ _ he; cases he), hi.freed n]
    by_cases e : n = h.next
    · subst e; rw [s2, hB, hb]; cases f <;> rfl
    · rw [s3 n e]; rfl
  · intro n ds xs g hm
    rw [hne (.freed n) (by intro _ _ _ _ he; cases he)]
    rw [s7, emit_mem] at hm
    rcases hm with hm | hm
    · obtain ⟨h1, h2, h3, h4⟩ := hi.made n ds xs g hm
      have e : n ≠ h.next := by omega
      rw [s3 n e, s1]
      refine ⟨by omega, h2, ?_, h4⟩
      intro d hd
      rcases h3 d hd with k | k
      · exact Or.inl k
      · refine Or.inr ?_
        show (h.node n).rc + deps.count n = 0
        rw [k, List.count_eq_zero.2 (fun hx => (hext n (hdeps n hx)).2 k)]
    · injection hm with e1 e2 e3 e4
      subst e1 e2 e3 e4
      rw [s2, s1]
      exact ⟨by omega, rfl, fun d hd => Or.inl hd, fun d hd => Or.inl hd⟩
  · intro n hn
    rw [s1] at hn
    by_cases e : n = h.next
    · subst e; rw [s7]; exact ⟨deps, data, f, emit_mem.2 (Or.inr rfl)⟩
    · obtain ⟨ds, xs, g, hm⟩ := hi.all n (by omega)
      rw [s7]
      exact ⟨ds, xs, g, emit_mem.2 (Or.inl hm)⟩
  · rw [hne _ (by intro _ _ _ _ he; cases he), s8]
    exact hi.released
  · rw [hcnt _ (by intro _ _ _ _ he; cases he), s9]
    exact hi.deleted

end VS.Life
