import Verif.Work.View

/-!
# Each step keeps the invariant
-/

namespace VS.Work

open VS.Pool (Key Graph Outcome Job Answered Event)

variable {F L : Type}

theorem Held.pool_wait {s : State F L} {p : Pool.State F L} {l : List Worker} (h : Held s l) (e : Quiet s.pool p) :
    (∀ c ∈ l.filterMap Worker.wait, c < p.next) ∧ (∀ c ∈ l.filterMap Worker.wait, (p.ctx c).external = true) ∧
    (∀ c ∈ s.reserved, c < p.next) ∧ (∀ c ∈ s.reserved, c ∉ p.alt) :=
  ⟨fun c hc => Nat.lt_of_lt_of_le (h.wlt c hc) e.next, fun c hc => by rw [e.ext c (h.wlt c hc)]; exact h.wext c hc,
    fun c hc => Nat.lt_of_lt_of_le (h.rlt c hc) e.next, fun c hc hx => by
      rcases e.alt c hx with h1 | h1
      · exact h.ralt c hc h1
      · exact absurd (h.rlt c hc) (Nat.not_lt.2 h1)⟩

theorem awake_scan (r : List Worker) :
    (⟨.scan, none⟩ :: r : List Worker).countP Worker.awake = r.countP Worker.awake + 1 := by
  rw [List.countP_cons]; rfl

/-- A worker moves on; it holds no lock. -/
theorem Held.turn {s : State F L} {p : Pool.State F L} {a b : At} {lk : Bool} {r : List Worker}
    (h : Held s (⟨a, none⟩ :: r))
    (e : Quiet s.pool p)
    (ha : Worker.awake ⟨a, none⟩ = true) (hb : Worker.awake ⟨b, none⟩ = true) (ha' : ∀ c, a ≠ .told c ∧ a ≠ .user c)
    (hb' : ∀ c, b ≠ .told c)
    (hcb : s.cbLock.toNat + (if Worker.inCb s.async ⟨b, none⟩ then 1 else 0) = lk.toNat)
    (hrun : ((⟨b, none⟩ :: r : List Worker).filterMap Worker.callOf).Perm (p.running.map Job.c))
    (hfin : ((⟨b, none⟩ :: r : List Worker).filterMap Worker.backOf).Perm (p.finished.map Prod.fst))
    (hret : ((⟨b, none⟩ :: r : List Worker).filterMap Worker.outOf).Perm (p.returning.map Prod.fst)) :
    Held { s with pool := p, cbLock := lk } (⟨b, none⟩ :: r) := by
  have hta : Worker.toldOf ⟨a, none⟩ = none := by
    cases a <;> first | rfl | exact absurd rfl (ha' _).1
  have htb : Worker.toldOf ⟨b, none⟩ = none := by
    cases b <;> first | rfl | exact absurd rfl (hb' _)
  have hra : Worker.rests ⟨a, none⟩ = false := by cases a <;> first | rfl | cases ha
  have hrb : Worker.rests ⟨b, none⟩ = false := by cases b <;> first | rfl | cases hb
  have hwait : (⟨b, none⟩ :: r : List Worker).filterMap Worker.wait = (⟨a, none⟩ :: r : List Worker).filterMap Worker.wait := rfl
  have htold : (⟨b, none⟩ :: r : List Worker).filterMap Worker.toldOf = (⟨a, none⟩ :: r : List Worker).filterMap Worker.toldOf := by
    rw [List.filterMap_cons, List.filterMap_cons, hta, htb]
  obtain ⟨w1, w2, w3, w4⟩ := h.pool_wait e
  exact {
    act := by
      have := h.act
      rw [List.countP_cons, ha] at this
      rw [List.countP_cons, hb]
      exact this
    idl := by
      have := h.idl
      rw [List.countP_cons, hra] at this
      rw [List.countP_cons, hrb]
      exact this
    run := hrun
    fin := hfin
    ret := hret
    wnd := by rw [hwait]; exact h.wnd
    wok := fun w hw hn => by
      rcases List.mem_cons.1 hw with rfl | hw
      · exact absurd rfl hn
      · exact h.wok w (List.mem_cons_of_mem _ hw) hn
    wlt := by rw [hwait]; exact w1
    wext := by rw [hwait]; exact w2
    wres := by
      rw [hwait]
      exact fun c hc hn => h.wres c hc (fun hx => hn ((e.ans c).2 hx))
    rnd := h.rnd
    rlt := w3
    rwt := by
      rw [hwait]
      exact fun c hc hn => h.rwt c hc (fun hx => hn ((e.ans c).2 hx))
    rtold := by
      rw [htold]
      exact fun c hc hn => h.rtold c hc ((e.ans c).1 hn)
    ralt := w4
    told := by
      rw [htold]
      exact fun c hc => (e.ans c).2 (h.told c hc)
    cb := by
      have h1 := h.cb
      have h2 : Worker.inCb s.async ⟨a, none⟩ = false := by
        cases a <;> first | rfl | exact absurd rfl (ha' _).2
      rw [List.countP_cons, h2] at h1
      rw [List.countP_cons]
      simp only [Bool.false_eq_true, if_false, Nat.add_zero] at h1
      rw [h1]
      exact hcb
    stp := fun hs w hw => by
      rcases List.mem_cons.1 hw with rfl | hw
      · intro hx; simp only at hx; subst hx; cases hb
      · exact h.stp hs w (List.mem_cons_of_mem _ hw)
    gon := fun hs w hw => by
      rcases List.mem_cons.1 hw with rfl | hw
      · intro hx; simp only at hx; subst hx; cases hb
      · exact h.gon hs w (List.mem_cons_of_mem _ hw)
    mx := h.mx
    flu := fun _ _ => by rw [List.countP_cons, hb]; simp }

theorem put_held {s : State F L} {i : Nat} {w w' : Worker} {s' : State F L} (hw : s.ws[i]? = some w)
    (hs : s'.ws = s.ws) (h : WInv s) (hh : ∀ r, Held s (w :: r) → Held s' (w' :: r)) : WInv (s'.put i w') := by
  obtain ⟨r, h1, h2⟩ := set_split hw
  have := (hh r (h.perm h1)).perm (h2 w').symm
  show Held _ (s'.ws.set i w')
  rw [hs]
  exact this.ws

/-- The worker at `scan` goes to sleep or ends. -/
theorem park_gone {s : State F L} {i : Nat} (h : WInv s) (hw : s.ws[i]? = some ⟨.scan, none⟩) (hst : s.stop = true) :
    WInv ({ s with active := s.active - 1 }.put i ⟨.gone, none⟩) := by
  refine put_held (s' := { s with active := s.active - 1 }) hw rfl h (fun r h => ?_)
  exact {
    act := by
      have := h.act
      rw [List.countP_cons] at this ⊢
      simp [Worker.awake] at this ⊢
      omega
    idl := by
      have := h.idl
      rw [List.countP_cons] at this ⊢
      simpa [Worker.rests] using this
    run := h.run
    fin := h.fin
    ret := h.ret
    wnd := h.wnd
    wok := fun w hw hn => by
      rcases List.mem_cons.1 hw with rfl | hw
      · exact absurd rfl hn
      · exact h.wok w (List.mem_cons_of_mem _ hw) hn
    wlt := h.wlt
    wext := h.wext
    wres := h.wres
    rnd := h.rnd
    rlt := h.rlt
    rwt := h.rwt
    rtold := h.rtold
    ralt := h.ralt
    told := h.told
    cb := h.cb
    stp := fun hs w hw => by
      rcases List.mem_cons.1 hw with rfl | hw
      · simp
      · exact h.stp hs w (List.mem_cons_of_mem _ hw)
    gon := fun hs => by rw [show s.stop = false from hs] at hst; cases hst
    mx := h.mx
    flu := fun _ hs => by rw [show s.stop = false from hs] at hst; cases hst }

theorem park_sleep {s : State F L} {i : Nat} (h : WInv s) (hw : s.ws[i]? = some ⟨.scan, none⟩) (hst : s.stop = false)
    (hfl : ¬ (s.idle + 1 = s.ws.length ∧ s.pool.flush = true)) :
    WInv ({ s with active := s.active - 1, idle := s.idle + 1 }.put i ⟨.sleep, none⟩) := by
  have hlen := length_countP (h.gon hst)
  have hidl := h.idl
  have hact := h.act
  refine put_held (s' := { s with active := s.active - 1, idle := s.idle + 1 }) hw rfl h (fun r h => ?_)
  exact {
    act := by
      have := h.act
      rw [List.countP_cons] at this ⊢
      simp [Worker.awake] at this ⊢
      omega
    idl := by
      have := h.idl
      rw [List.countP_cons] at this ⊢
      simp [Worker.rests] at this ⊢
      omega
    run := h.run
    fin := h.fin
    ret := h.ret
    wnd := h.wnd
    wok := fun w hw hn => by
      rcases List.mem_cons.1 hw with rfl | hw
      · exact absurd rfl hn
      · exact h.wok w (List.mem_cons_of_mem _ hw) hn
    wlt := h.wlt
    wext := h.wext
    wres := h.wres
    rnd := h.rnd
    rlt := h.rlt
    rwt := h.rwt
    rtold := h.rtold
    ralt := h.ralt
    told := h.told
    cb := h.cb
    stp := fun hs => by rw [show s.stop = true from hs] at hst; cases hst
    gon := fun hs w hw => by
      rcases List.mem_cons.1 hw with rfl | hw
      · simp
      · exact h.gon hs w (List.mem_cons_of_mem _ hw)
    mx := h.mx
    flu := fun hf _ => by
      have hne : s.idle + 1 ≠ s.ws.length := fun e => hfl ⟨e, hf⟩
      have hp : (⟨.scan, none⟩ :: r : List Worker).countP Worker.awake = s.ws.countP Worker.awake := by
        have h1 := h.act
        omega
      rw [awake_scan] at hp
      rw [List.countP_cons]
      omega }

/-- What it takes to swap the queues. -/
theorem swap_empty {s : State F L} {i : Nat} (h : WInv s) (hw : s.ws[i]? = some ⟨.scan, none⟩) (hst : s.stop = false)
    (hi : s.idle + 1 = s.ws.length) :
    s.reserved = [] ∧ s.active = 1 ∧ s.pool.running = [] ∧ s.pool.finished = [] ∧ s.pool.returning = [] := by
  have hlen := length_countP (h.gon hst)
  have hidl := h.idl
  obtain ⟨r, h1, h2⟩ := set_split hw
  have h' := h.perm h1
  have hone : s.ws.countP Worker.awake = 1 := by omega
  have hr : r.countP Worker.awake = 0 := by
    rw [h1.countP_eq, awake_scan] at hone
    omega
  have hr' : ∀ w ∈ r, w.awake = false := by
    intro w hw
    have := List.countP_eq_zero.1 hr w hw
    simpa using this
  have hnone : ∀ f : Worker → Option Nat, f ⟨.scan, none⟩ = none → (∀ w, f w ≠ none → w.awake = true) →
      (⟨.scan, none⟩ :: r : List Worker).filterMap f = [] := by
    intro f h3 h4
    rw [List.filterMap_cons, h3]
    simp only
    refine List.filterMap_eq_nil_iff.2 (fun w hw => ?_)
    cases hf : f w with
    | none => rfl
    | some c =>
      have := h4 w (by rw [hf]; simp)
      rw [hr' w hw] at this; cases this
  have hwait : (⟨.scan, none⟩ :: r : List Worker).filterMap Worker.wait = [] := by
    rw [List.filterMap_cons]
    simp only
    refine List.filterMap_eq_nil_iff.2 (fun w hw => ?_)
    cases hf : w.wait with
    | none => rfl
    | some c =>
      have h5 := h'.wok w (List.mem_cons_of_mem _ hw) (by rw [hf]; simp)
      have h6 := hr' w hw
      unfold Worker.awake at h6
      unfold State.mayBlock at h5
      split at h5 <;> simp_all
  have htold := hnone Worker.toldOf rfl (fun w => by unfold Worker.toldOf Worker.awake; split <;> simp_all)
  have hcall := hnone Worker.callOf rfl (fun w => by unfold Worker.callOf Worker.awake; split <;> simp_all)
  have hback := hnone Worker.backOf rfl (fun w => by unfold Worker.backOf Worker.awake; split <;> simp_all)
  have hout := hnone Worker.outOf rfl (fun w => by unfold Worker.outOf Worker.awake; split <;> simp_all)
  have hres : s.reserved = [] := by
    refine List.eq_nil_iff_forall_not_mem.2 (fun c hc => ?_)
    by_cases ha : Answered s.pool.trace c
    · have := h'.rtold c hc ha
      rw [htold] at this; cases this
    · have := h'.rwt c hc ha
      rw [hwait] at this; cases this
  have hrun := h'.run
  have hfin := h'.fin
  have hret := h'.ret
  rw [hcall] at hrun
  rw [hback] at hfin
  rw [hout] at hret
  have hact := h.act
  rw [hres] at hact
  simp only [List.length_nil] at hact
  exact ⟨hres, by omega, List.map_eq_nil_iff.1 hrun.nil_eq.symm, List.map_eq_nil_iff.1 hfin.nil_eq.symm,
    List.map_eq_nil_iff.1 hret.nil_eq.symm⟩

theorem swap_held {s : State F L} {i : Nat} (h : WInv s) (hw : s.ws[i]? = some ⟨.scan, none⟩) (hst : s.stop = false)
    (hi : s.idle + 1 = s.ws.length) :
    WInv { s with pool := s.pool.swap, active := s.active - 1 + 1, idle := s.idle + 1 - 1, ws := notifyAll s.ws } := by
  obtain ⟨hres, _, _⟩ := swap_empty h hw hst hi
  have h0 := h.woke (notifyAll_woke s.ws)
  exact {
    act := by have := h0.act; simp only; omega
    idl := by have := h0.idl; simp only; omega
    run := h0.run
    fin := h0.fin
    ret := h0.ret
    wnd := h0.wnd
    wok := h0.wok
    wlt := h0.wlt
    wext := h0.wext
    wres := h0.wres
    rnd := h0.rnd
    rlt := h0.rlt
    rwt := h0.rwt
    rtold := h0.rtold
    ralt := fun c hc => by
      have hc : c ∈ s.reserved := hc
      rw [hres] at hc; cases hc
    told := h0.told
    cb := h0.cb
    stp := h0.stp
    gon := h0.gon
    mx := h0.mx
    flu := fun hf => by cases hf }

theorem park_held {s : State F L} {i : Nat} (h : WInv s) (hw : s.ws[i]? = some ⟨.scan, none⟩) : WInv (s.park i) := by
  unfold State.park
  simp only
  split
  · next hst => exact park_gone h hw hst
  · next hst =>
    have hst : s.stop = false := by simpa using hst
    split
    · next hx => exact swap_held h hw hst hx.1
    · next hx => exact park_sleep h hw hst hx

theorem after_held {s : State F L} {i : Nat} {over : Bool} (h : WInv s) (hw : s.ws[i]? = some ⟨.scan, none⟩) :
    WInv (s.after i over) := by
  unfold State.after
  split
  · exact park_held h hw
  · exact h

end VS.Work
