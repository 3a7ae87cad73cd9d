import Verif.Work.Basic

/-!
# What holds between the threads and the scheduler
-/

namespace VS.Work

open VS.Pool (Key Graph Outcome Job Answered)

variable {F L : Type}

/-- The invariant, for the workers in the order `l`. -/
structure Held (s : State F L) (l : List Worker) : Prop where
  act : s.active + s.reserved.length = l.countP Worker.awake
  idl : s.idle = l.countP Worker.rests
  run : (l.filterMap Worker.callOf).Perm (s.pool.running.map Job.c)
  fin : (l.filterMap Worker.backOf).Perm (s.pool.finished.map Prod.fst)
  ret : (l.filterMap Worker.outOf).Perm (s.pool.returning.map Prod.fst)
  wnd : (l.filterMap Worker.wait).Nodup
  wok : ∀ w ∈ l, w.wait ≠ none → s.mayBlock w.place = true
  wlt : ∀ c ∈ l.filterMap Worker.wait, c < s.pool.next
  wext : ∀ c ∈ l.filterMap Worker.wait, (s.pool.ctx c).external = true
  wres : ∀ c ∈ l.filterMap Worker.wait, ¬ Answered s.pool.trace c → c ∈ s.reserved
  rnd : s.reserved.Nodup
  rlt : ∀ c ∈ s.reserved, c < s.pool.next
  rwt : ∀ c ∈ s.reserved, ¬ Answered s.pool.trace c → c ∈ l.filterMap Worker.wait
  rtold : ∀ c ∈ s.reserved, Answered s.pool.trace c → c ∈ l.filterMap Worker.toldOf
  ralt : ∀ c ∈ s.reserved, c ∉ s.pool.alt
  told : ∀ c ∈ l.filterMap Worker.toldOf, Answered s.pool.trace c
  cb : l.countP (Worker.inCb s.async) = s.cbLock.toNat
  stp : s.stop = true → ∀ w ∈ l, w.place ≠ .sleep
  gon : s.stop = false → ∀ w ∈ l, w.place ≠ .gone
  mx : 1 ≤ s.max
  flu : s.pool.flush = true → s.stop = false → 0 < l.countP Worker.awake

abbrev WInv (s : State F L) : Prop := Held s s.ws

theorem Held.perm {s : State F L} {l l' : List Worker} (h : Held s l) (p : l.Perm l') : Held s l' where
  act := by rw [← p.countP_eq]; exact h.act
  idl := by rw [← p.countP_eq]; exact h.idl
  run := (p.filterMap _).symm.trans h.run
  fin := (p.filterMap _).symm.trans h.fin
  ret := (p.filterMap _).symm.trans h.ret
  wnd := (p.filterMap _).nodup_iff.1 h.wnd
  wok := fun w hw => h.wok w (p.mem_iff.2 hw)
  wlt := fun c hc => h.wlt c ((p.filterMap _).mem_iff.2 hc)
  wext := fun c hc => h.wext c ((p.filterMap _).mem_iff.2 hc)
  wres := fun c hc => h.wres c ((p.filterMap _).mem_iff.2 hc)
  rnd := h.rnd
  rlt := h.rlt
  rwt := fun c hc hn => (p.filterMap _).mem_iff.1 (h.rwt c hc hn)
  rtold := fun c hc hn => (p.filterMap _).mem_iff.1 (h.rtold c hc hn)
  ralt := h.ralt
  told := fun c hc => h.told c ((p.filterMap _).mem_iff.2 hc)
  cb := by rw [← p.countP_eq]; exact h.cb
  stp := fun hs w hw => h.stp hs w (p.mem_iff.2 hw)
  gon := fun hs w hw => h.gon hs w (p.mem_iff.2 hw)
  mx := h.mx
  flu := by rw [← p.countP_eq]; exact h.flu

/-- Waking someone up. -/
theorem Held.woke {s : State F L} {l l' : List Worker} (h : Held s l) (p : Woke l l') : Held s l' where
  act := by rw [p.awake]; exact h.act
  idl := by rw [p.rests]; exact h.idl
  run := by rw [p.filterMap _ (fun _ => rfl)]; exact h.run
  fin := by rw [p.filterMap _ (fun _ => rfl)]; exact h.fin
  ret := by rw [p.filterMap _ (fun _ => rfl)]; exact h.ret
  wnd := by rw [p.filterMap _ (fun _ => rfl)]; exact h.wnd
  wok := fun w hw hn => by
    rcases p.mem hw with h1 | ⟨h1, h2⟩
    · exact h.wok w h1 hn
    · have := h.wok _ h2 hn
      cases this
  wlt := by rw [p.filterMap _ (fun _ => rfl)]; exact h.wlt
  wext := by rw [p.filterMap _ (fun _ => rfl)]; exact h.wext
  wres := by rw [p.filterMap _ (fun _ => rfl)]; exact h.wres
  rnd := h.rnd
  rlt := h.rlt
  rwt := by rw [p.filterMap _ (fun _ => rfl)]; exact h.rwt
  rtold := by rw [p.filterMap _ (fun _ => rfl)]; exact h.rtold
  ralt := h.ralt
  told := by rw [p.filterMap _ (fun _ => rfl)]; exact h.told
  cb := by rw [p.inCb]; exact h.cb
  stp := fun hs w hw => by
    rcases p.mem hw with h1 | ⟨h1, h2⟩
    · exact h.stp hs w h1
    · rw [h1]; simp
  gon := fun hs w hw => by
    rcases p.mem hw with h1 | ⟨h1, h2⟩
    · exact h.gon hs w h1
    · rw [h1]; simp
  mx := h.mx
  flu := by rw [p.awake]; exact h.flu

/-- Only the workers themselves matter. -/
theorem Held.ws {s : State F L} {l m : List Worker} (h : Held s l) : Held { s with ws := m } l :=
  ⟨h.act, h.idl, h.run, h.fin, h.ret, h.wnd, h.wok, h.wlt, h.wext, h.wres, h.rnd, h.rlt, h.rwt, h.rtold, h.ralt, h.told,
    h.cb, h.stp, h.gon, h.mx, h.flu⟩

theorem Held.ws' {s : State F L} {l m : List Worker} (h : Held { s with ws := m } l) : Held s l :=
  ⟨h.act, h.idl, h.run, h.fin, h.ret, h.wnd, h.wok, h.wlt, h.wext, h.wres, h.rnd, h.rlt, h.rwt, h.rtold, h.ralt, h.told,
    h.cb, h.stp, h.gon, h.mx, h.flu⟩

theorem spawn_inv {s : State F L} (h : WInv s) :
    WInv { s with ws := s.ws ++ [⟨.scan, none⟩], active := s.active + 1 } where
  act := by
    have := h.act
    simp only [List.countP_append, List.countP_cons, List.countP_nil]
    simp [Worker.awake]
    omega
  idl := by
    have := h.idl
    simp only [List.countP_append, List.countP_cons, List.countP_nil]
    simp [Worker.rests]
    omega
  run := by simpa [List.filterMap_cons, Worker.callOf] using h.run
  fin := by simpa [List.filterMap_cons, Worker.backOf] using h.fin
  ret := by simpa [List.filterMap_cons, Worker.outOf] using h.ret
  wnd := by simpa using h.wnd
  wok := fun w hw hn => by
    rcases List.mem_append.1 hw with h1 | h1
    · exact h.wok w h1 hn
    · rw [List.mem_singleton.1 h1] at hn; exact absurd rfl hn
  wlt := by simpa using h.wlt
  wext := by simpa using h.wext
  wres := by simpa using h.wres
  rnd := h.rnd
  rlt := h.rlt
  rwt := by simpa using h.rwt
  rtold := by simpa [Worker.toldOf] using h.rtold
  ralt := h.ralt
  told := by simpa [Worker.toldOf] using h.told
  cb := by
    have := h.cb
    simp only [List.countP_append, List.countP_cons, List.countP_nil]
    simp [Worker.inCb]
    omega
  stp := fun hs w hw => by
    rcases List.mem_append.1 hw with h1 | h1
    · exact h.stp hs w h1
    · rw [List.mem_singleton.1 h1]; simp
  gon := fun hs w hw => by
    rcases List.mem_append.1 hw with h1 | h1
    · exact h.gon hs w h1
    · rw [List.mem_singleton.1 h1]; simp
  mx := h.mx
  flu := fun _ _ => by
    simp only [List.countP_append, List.countP_cons]
    simp [Worker.awake]

/-- What `wakeThread` does to the threads. -/
inductive WakeCase (s : State F L) : State F L → Prop where
  | same : WakeCase s s
  | spawn : WakeCase s { s with ws := s.ws ++ [⟨.scan, none⟩], active := s.active + 1 }
  | woke {l : List Worker} : Woke s.ws l → WakeCase s { s with ws := l }

theorem wakeThread_case (s : State F L) (over : Bool) (who : Nat) : WakeCase s (s.wakeThread over who) := by
  unfold State.wakeThread
  split
  · split
    · exact .same
    · split
      · exact .spawn
      · exact .woke (notifyOne_woke _ _)
  · exact .same

theorem WakeCase.inv {s s' : State F L} (h : WInv s) (c : WakeCase s s') : WInv s' := by
  cases c with
  | same => exact h
  | spawn => exact spawn_inv h
  | woke p => exact (h.woke p).ws

/-- Everything else stays. -/
structure Kept (s s' : State F L) : Prop where
  pool : s'.pool = s.pool
  idle : s'.idle = s.idle
  max : s'.max = s.max
  reserved : s'.reserved = s.reserved
  async : s'.async = s.async
  cbLock : s'.cbLock = s.cbLock
  stop : s'.stop = s.stop
  get : ∀ (i : Nat) (w : Worker), s.ws[i]? = some w → w.place ≠ .sleep → s'.ws[i]? = some w
  ge : s.active ≤ s'.active

theorem Kept.refl (s : State F L) : Kept s s :=
  ⟨rfl, rfl, rfl, rfl, rfl, rfl, rfl, fun _ _ h _ => h, Int.le_refl _⟩

theorem Kept.trans {a b c : State F L} (h : Kept a b) (h' : Kept b c) : Kept a c :=
  ⟨h'.pool.trans h.pool, h'.idle.trans h.idle, h'.max.trans h.max, h'.reserved.trans h.reserved,
    h'.async.trans h.async, h'.cbLock.trans h.cbLock, h'.stop.trans h.stop,
    fun i w h1 h2 => h'.get i w (h.get i w h1 h2) h2, Int.le_trans h.ge h'.ge⟩

theorem WakeCase.kept {s s' : State F L} (c : WakeCase s s') : Kept s s' := by
  cases c with
  | same => exact Kept.refl _
  | spawn =>
    refine ⟨rfl, rfl, rfl, rfl, rfl, rfl, rfl, fun i w h _ => ?_, by simp only; omega⟩
    have hlt := (List.getElem?_eq_some_iff.1 h).1
    rw [List.getElem?_append_left hlt]; exact h
  | woke p => exact ⟨rfl, rfl, rfl, rfl, rfl, rfl, rfl, fun i w h1 h2 => p.get h1 h2, Int.le_refl _⟩

theorem wakes_inv {s : State F L} (h : WInv s) (over : Nat → Bool) (who : Nat → Nat) (n : Nat) :
    WInv (s.wakes over who n) := by
  induction n with
  | zero => exact h
  | succ n ih => exact (wakeThread_case _ _ _).inv ih

theorem wakes_kept (s : State F L) (over : Nat → Bool) (who : Nat → Nat) (n : Nat) :
    Kept s (s.wakes over who n) := by
  induction n with
  | zero => exact Kept.refl _
  | succ n ih => exact ih.trans (wakeThread_case _ _ _).kept

theorem nodup_length_le {α : Type} [DecidableEq α] {l m : List α} (h : l.Nodup) (hs : ∀ x ∈ l, x ∈ m) :
    l.length ≤ m.length := by
  induction l generalizing m with
  | nil => simp
  | cons a t ih =>
    rw [List.nodup_cons] at h
    have ha : a ∈ m := hs a (List.mem_cons_self ..)
    have := ih (m := m.erase a) h.2 (fun x hx => by
      rw [List.mem_erase_of_ne (fun e : x = a => h.1 (e ▸ hx))]
      exact hs x (List.mem_cons_of_mem _ hx))
    rw [List.length_erase_of_mem ha] at this
    have hpos : 0 < m.length := List.length_pos_of_mem ha
    simp only [List.length_cons]
    omega

/-- A thread that waits in `getFrame` or has just told someone is in the loop. -/
theorem Held.wt {s : State F L} {l : List Worker} (h : Held s l) :
    (l.filterMap Worker.wait).length + (l.filterMap Worker.toldOf).length ≤ l.countP Worker.awake := by
  have hw := h.wok
  clear h
  induction l with
  | nil => simp
  | cons w t ih =>
    have := ih (fun v hv => hw v (List.mem_cons_of_mem _ hv))
    have h1 := hw w (List.mem_cons_self ..)
    rw [List.filterMap_cons, List.filterMap_cons, List.countP_cons]
    obtain ⟨p, x⟩ := w
    cases x with
    | none =>
      cases p <;> simp [Worker.toldOf, Worker.awake] <;> omega
    | some c =>
      have h2 := h1 (by simp)
      cases p <;> simp [State.mayBlock, Worker.toldOf, Worker.awake] at h2 ⊢ <;> omega

/-- `activeThreads` never wraps around. -/
theorem Held.nonneg {s : State F L} {l : List Worker} (h : Held s l) : 0 ≤ s.active := by
  have h1 : s.reserved.length ≤ (l.filterMap Worker.wait ++ l.filterMap Worker.toldOf).length := by
    refine nodup_length_le h.rnd (fun c hc => List.mem_append.2 ?_)
    by_cases ha : Answered s.pool.trace c
    · exact .inr (h.rtold c hc ha)
    · exact .inl (h.rwt c hc ha)
  rw [List.length_append] at h1
  have h2 := h.wt
  have h3 := h.act
  omega

/-- A worker that can do nothing by itself: it sleeps, has ended, or waits in `getFrame` for a request that is
not answered. -/
def Worker.stuck (p : Pool.State F L) (w : Worker) : Prop :=
  w.place = .sleep ∨ w.place = .gone ∨ ∃ c, w.wait = some c ∧ ¬ Answered p.trace c

def AllStuck (s : State F L) : Prop := ∀ w ∈ s.ws, w.stuck s.pool

theorem Held.stuck_active {s : State F L} {l : List Worker} (h : Held s l) (ha : ∀ w ∈ l, w.stuck s.pool) :
    s.active = 0 := by
  have h1 : l.countP Worker.awake ≤ (l.filterMap Worker.wait).length := by
    clear h
    induction l with
    | nil => simp
    | cons w t ih =>
      have := ih (fun v hv => ha v (List.mem_cons_of_mem _ hv))
      rw [List.filterMap_cons, List.countP_cons]
      obtain ⟨p, x⟩ := w
      rcases ha _ (List.mem_cons_self ..) with hx | hx | ⟨c, hx, _⟩
      · simp only at hx; subst hx
        simp only [Worker.awake, Bool.false_eq_true, if_false, Nat.add_zero]
        split <;> simp <;> omega
      · simp only at hx; subst hx
        simp only [Worker.awake, Bool.false_eq_true, if_false, Nat.add_zero]
        split <;> simp <;> omega
      · simp only at hx; subst hx
        simp only [List.length_cons]
        split <;> omega
  have h2 : (l.filterMap Worker.wait).length ≤ s.reserved.length := by
    refine nodup_length_le h.wnd (fun c hc => h.wres c hc ?_)
    obtain ⟨w, hw, hx⟩ := List.mem_filterMap.1 hc
    rcases ha w hw with h3 | h3 | ⟨d, h3, h4⟩
    · have := h.wok w hw (by rw [hx]; simp)
      rw [h3] at this; cases this
    · have := h.wok w hw (by rw [hx]; simp)
      rw [h3] at this; cases this
    · rw [hx] at h3
      injection h3 with h3
      rw [h3]; exact h4
  have h3 := h.act
  have h4 := h.nonneg
  omega

/-- `wakeThread` leaves someone who can go on. -/
theorem wakeThread_live {s : State F L} (h : WInv s) (over : Bool) (who : Nat) :
    ¬ AllStuck (s.wakeThread over who) := by
  intro ha
  have h0 := ((wakeThread_case s over who).inv h).stuck_active ha
  have hmx := h.mx
  unfold State.wakeThread at h0 ha
  split at h0
  · next hlt =>
    rw [if_pos hlt] at ha
    split at h0
    · next h1 =>
      simp at h1
      omega
    · next h1 =>
      rw [if_neg h1] at ha
      split at h0
      · have := h.nonneg
        simp only at h0
        omega
      · next h2 =>
        rw [if_neg h2] at ha
        rcases notifyOne_cases s.ws who with ⟨h3, h4⟩ | ⟨h3, w, hw, h4⟩
        · have h5 := h.idl
          have : 0 < s.ws.countP Worker.rests := by omega
          obtain ⟨w, hw, hr⟩ := List.countP_pos_iff.1 this
          rcases ha w (by simpa only [h3] using hw) with hx | hx | ⟨c, hx, _⟩
          · exact h4 w hw hx
          · rw [Worker.rests, hx] at hr; cases hr
          · have := h.wok w hw (by rw [hx]; simp)
            unfold Worker.rests at hr
            unfold State.mayBlock at this
            split at hr <;> simp_all
        · rcases ha w hw with hx | hx | ⟨c, hx, _⟩
          · rw [h4] at hx; cases hx
          · rw [h4] at hx; cases hx
          · rcases h3.mem hw with h5 | ⟨_, h5⟩
            · have := h.wok w h5 (by rw [hx]; simp)
              rw [h4] at this; cases this
            · have := h.wok _ h5 (by simp [hx])
              cases this
  · next hge => omega

theorem length_countP {l : List Worker} (hg : ∀ w ∈ l, w.place ≠ .gone) :
    l.length = l.countP Worker.awake + l.countP Worker.rests := by
  induction l with
  | nil => rfl
  | cons w t ih =>
    have := ih (fun v hv => hg v (List.mem_cons_of_mem _ hv))
    have h1 := hg w (List.mem_cons_self ..)
    rw [List.length_cons, List.countP_cons, List.countP_cons]
    obtain ⟨p, x⟩ := w
    cases p <;> simp [Worker.awake, Worker.rests] at h1 ⊢ <;> omega

end VS.Work
