import Verif.Work.Step

/-!
# Each step keeps the invariant: requests, callbacks, waking up
-/

namespace VS.Work

open VS.Pool (Key Graph Outcome Job Answered Event)

variable {F L : Type}

/-- The scheduler changes and no worker moves. -/
theorem Held.quiet {s : State F L} {p : Pool.State F L} {l : List Worker} {as : List Nat} (h : Held s l)
    (e : Quiet s.pool p) (hrun : p.running.map Job.c = s.pool.running.map Job.c)
    (hfin : p.finished.map Prod.fst = s.pool.finished.map Prod.fst)
    (hret : p.returning.map Prod.fst = s.pool.returning.map Prod.fst) (hf : p.flush = s.pool.flush)
    (has : ∀ w ∈ l, w.inCb s.async = w.inCb as) : Held { s with pool := p, async := as } l := by
  obtain ⟨w1, w2, w3, w4⟩ := h.pool_wait e
  exact {
    act := h.act
    idl := h.idl
    run := by rw [hrun]; exact h.run
    fin := by rw [hfin]; exact h.fin
    ret := by rw [hret]; exact h.ret
    wnd := h.wnd
    wok := fun w hw hn => by
      have h1 := h.wok w hw hn
      have h2 := has w hw
      unfold Worker.inCb at h2
      unfold State.mayBlock at h1 ⊢
      split at h1
      · rfl
      · next c hc => simp only [hc] at h2 ⊢; rw [← h2]; exact h1
      · cases h1
    wlt := w1
    wext := w2
    wres := fun c hc hn => h.wres c hc (fun hx => hn ((e.ans c).2 hx))
    rnd := h.rnd
    rlt := w3
    rwt := fun c hc hn => h.rwt c hc (fun hx => hn ((e.ans c).2 hx))
    rtold := fun c hc hn => h.rtold c hc ((e.ans c).1 hn)
    ralt := w4
    told := fun c hc => (e.ans c).2 (h.told c hc)
    cb := by
      have h1 : l.countP (Worker.inCb as) = l.countP (Worker.inCb s.async) :=
        List.countP_congr (fun w hw => by rw [has w hw])
      show l.countP (Worker.inCb as) = _
      rw [h1]; exact h.cb
    stp := h.stp
    gon := h.gon
    mx := h.mx
    flu := by rw [hf]; exact h.flu }

theorem request_held {g : Graph F L} {s : State F L} (h : WInv s) (k : Key) (as : List Nat)
    (has : ∀ w ∈ s.ws, w.inCb s.async = w.inCb as) : WInv { s with pool := s.pool.request g k false, async := as } := by
  obtain ⟨v1, v2, v3, v4, v5, _⟩ := request_view g s.pool k false
  exact h.quiet v1 (by rw [v2]) (by rw [v3]) (by rw [v4]) v5 has

theorem block_held {g : Graph F L} {s : State F L} {i : Nat} {p : At} {k : Key} (h : WInv s)
    (ha : ∀ c, Answered s.pool.trace c → c < s.pool.next) (halt : ∀ c ∈ s.pool.alt, c < s.pool.next)
    (hw : s.ws[i]? = some ⟨p, none⟩) (hm : s.mayBlock p = true) :
    WInv ({ s with
      pool := s.pool.request g k true
      active := s.active - 1
      reserved := s.pool.next :: s.reserved }.put i ⟨p, some s.pool.next⟩) := by
  obtain ⟨v1, v2, v3, v4, v5, v6, v7, _, v8⟩ := request_view g s.pool k true
  have v8 := v8 rfl
  refine put_held (w' := ⟨p, some s.pool.next⟩) (s' := { s with
      pool := s.pool.request g k true
      active := s.active - 1
      reserved := s.pool.next :: s.reserved }) hw rfl h (fun r h => ?_)
  have hnew : ¬ Answered (s.pool.request g k true).trace s.pool.next := fun hx =>
    Nat.lt_irrefl _ (ha _ ((v1.ans _).1 hx))
  have hwait : (⟨p, some s.pool.next⟩ :: r : List Worker).filterMap Worker.wait =
      s.pool.next :: (⟨p, none⟩ :: r : List Worker).filterMap Worker.wait := rfl
  have haw : Worker.awake ⟨p, some s.pool.next⟩ = true := by
    unfold State.mayBlock at hm
    split at hm <;> first | rfl | cases hm
  have hna : ∀ x y, (⟨p, x⟩ : Worker).awake = (⟨p, y⟩ : Worker).awake := fun _ _ => rfl
  have htold : (⟨p, some s.pool.next⟩ :: r : List Worker).filterMap Worker.toldOf =
      (⟨p, none⟩ :: r : List Worker).filterMap Worker.toldOf := rfl
  obtain ⟨w1, w2, w3, w4⟩ := h.pool_wait v1
  exact {
    act := by
      have := h.act
      rw [List.countP_cons] at this ⊢
      rw [hna _ none]
      simp only [List.length_cons]
      omega
    idl := h.idl
    run := by rw [v2]; exact h.run
    fin := by rw [v3]; exact h.fin
    ret := by rw [v4]; exact h.ret
    wnd := by
      rw [hwait, List.nodup_cons]
      exact ⟨fun hx => Nat.lt_irrefl _ (h.wlt _ hx), h.wnd⟩
    wok := fun w hw hn => by
      rcases List.mem_cons.1 hw with rfl | hw
      · exact hm
      · exact h.wok w (List.mem_cons_of_mem _ hw) hn
    wlt := by
      rw [hwait]
      intro c hc
      show c < (s.pool.request g k true).next
      rcases List.mem_cons.1 hc with rfl | hc
      · rw [v6]; omega
      · exact w1 c hc
    wext := by
      rw [hwait]
      intro c hc
      rcases List.mem_cons.1 hc with rfl | hc
      · exact v7
      · exact w2 c hc
    wres := by
      rw [hwait]
      intro c hc hn
      rcases List.mem_cons.1 hc with rfl | hc
      · exact List.mem_cons_self ..
      · exact List.mem_cons_of_mem _ (h.wres c hc (fun hx => hn ((v1.ans c).2 hx)))
    rnd := List.nodup_cons.2 ⟨fun hx => Nat.lt_irrefl _ (h.rlt _ hx), h.rnd⟩
    rlt := fun c hc => by
      show c < (s.pool.request g k true).next
      rcases List.mem_cons.1 hc with rfl | hc
      · rw [v6]; omega
      · exact w3 c hc
    rwt := by
      rw [hwait]
      intro c hc hn
      rcases List.mem_cons.1 hc with rfl | hc
      · exact List.mem_cons_self ..
      · exact List.mem_cons_of_mem _ (h.rwt c hc (fun hx => hn ((v1.ans c).2 hx)))
    rtold := by
      rw [htold]
      intro c hc hn
      rcases List.mem_cons.1 hc with rfl | hc
      · exact absurd hn hnew
      · exact h.rtold c hc ((v1.ans c).1 hn)
    ralt := fun c hc => by
      rcases List.mem_cons.1 hc with rfl | hc
      · show _ ∉ (s.pool.request g k true).alt
        rw [v8]
        exact fun hx => Nat.lt_irrefl _ (halt _ hx)
      · exact w4 c hc
    told := by
      rw [htold]
      exact fun c hc => (v1.ans c).2 (h.told c hc)
    cb := h.cb
    stp := fun hs w hw => by
      rcases List.mem_cons.1 hw with rfl | hw
      · intro hx; simp only at hx; subst hx; cases haw
      · exact h.stp hs w (List.mem_cons_of_mem _ hw)
    gon := fun hs w hw => by
      rcases List.mem_cons.1 hw with rfl | hw
      · intro hx; simp only at hx; subst hx; cases haw
      · exact h.gon hs w (List.mem_cons_of_mem _ hw)
    mx := h.mx
    flu := fun _ _ => by rw [List.countP_cons, haw]; simp }

theorem unblock_held {s : State F L} {i c : Nat} {p : At} (h : WInv s) (hw : s.ws[i]? = some ⟨p, some c⟩)
    (ha : Answered s.pool.trace c) : WInv (s.put i ⟨p, none⟩) := by
  refine put_held (w' := ⟨p, none⟩) (s' := s) hw rfl h (fun r h => ?_)
  have hwait : (⟨p, some c⟩ :: r : List Worker).filterMap Worker.wait =
      c :: (⟨p, none⟩ :: r : List Worker).filterMap Worker.wait := rfl
  have hna : (⟨p, some c⟩ : Worker).awake = (⟨p, none⟩ : Worker).awake := rfl
  have w1 := h.wnd
  have w2 := h.wlt
  have w3 := h.wext
  have w4 := h.wres
  have w5 := h.rwt
  rw [hwait] at w1 w2 w3 w4 w5
  exact {
    act := h.act
    idl := h.idl
    run := h.run
    fin := h.fin
    ret := h.ret
    wnd := (List.nodup_cons.1 w1).2
    wok := fun w hw hn => by
      rcases List.mem_cons.1 hw with rfl | hw
      · exact absurd rfl hn
      · exact h.wok w (List.mem_cons_of_mem _ hw) hn
    wlt := fun d hd => w2 d (List.mem_cons_of_mem _ hd)
    wext := fun d hd => w3 d (List.mem_cons_of_mem _ hd)
    wres := fun d hd => w4 d (List.mem_cons_of_mem _ hd)
    rnd := h.rnd
    rlt := h.rlt
    rwt := fun d hd hn => by
      rcases List.mem_cons.1 (w5 d hd hn) with rfl | h1
      · exact absurd ha hn
      · exact h1
    rtold := h.rtold
    ralt := h.ralt
    told := h.told
    cb := h.cb
    stp := fun hs w hw => by
      rcases List.mem_cons.1 hw with rfl | hw
      · exact h.stp hs ⟨p, some c⟩ (List.mem_cons_self ..)
      · exact h.stp hs w (List.mem_cons_of_mem _ hw)
    gon := fun hs w hw => by
      rcases List.mem_cons.1 hw with rfl | hw
      · exact h.gon hs ⟨p, some c⟩ (List.mem_cons_self ..)
      · exact h.gon hs w (List.mem_cons_of_mem _ hw)
    mx := h.mx
    flu := h.flu }

/-- The callback of `c` returns. -/
theorem leave_held {s : State F L} {i c : Nat} {q : Nat × Except String F} (h : WInv s)
    (hw : s.ws[i]? = some ⟨.user c, none⟩) (hq : s.pool.returning.find? (fun p => p.1 == c) = some q) :
    WInv ({ s with
      pool := s.pool.callback c q.2
      cbLock := if c ∈ s.async then false else s.cbLock }.put i ⟨.told c, none⟩) := by
  have hans : ∀ d, Answered (s.pool.callback c q.2).trace d ↔ d = c ∨ Answered s.pool.trace d := by
    intro d
    show Answered (s.pool.trace ++ [_]) d ↔ _
    constructor
    · rintro ⟨k, r, hm⟩
      rcases List.mem_append.1 hm with h1 | h1
      · exact .inr ⟨k, r, h1⟩
      · injection List.mem_singleton.1 h1 with h1
        exact .inl h1
    · rintro (rfl | ⟨k, r, hm⟩)
      · exact ⟨_, _, List.mem_append_right _ (List.mem_singleton.2 rfl)⟩
      · exact ⟨k, r, List.mem_append_left _ hm⟩
  have hqc : q.1 = c := by simpa using List.find?_some hq
  refine put_held (w' := ⟨.told c, none⟩) (s' := { s with
      pool := s.pool.callback c q.2
      cbLock := if c ∈ s.async then false else s.cbLock }) hw rfl h (fun r h => ?_)
  have hret := h.ret
  have htold : (⟨.told c, none⟩ :: r : List Worker).filterMap Worker.toldOf =
      c :: (⟨.user c, none⟩ :: r : List Worker).filterMap Worker.toldOf := rfl
  exact {
    act := h.act
    idl := h.idl
    run := h.run
    fin := h.fin
    ret := by
      have h1 := (eraseP_perm hq).map Prod.fst
      rw [List.map_cons, hqc] at h1
      exact (hret.trans h1).cons_inv
    wnd := h.wnd
    wok := fun w hw hn => by
      rcases List.mem_cons.1 hw with rfl | hw
      · exact absurd rfl hn
      · exact h.wok w (List.mem_cons_of_mem _ hw) hn
    wlt := h.wlt
    wext := h.wext
    wres := fun d hd hn => h.wres d hd (fun hx => hn ((hans d).2 (.inr hx)))
    rnd := h.rnd
    rlt := h.rlt
    rwt := fun d hd hn => h.rwt d hd (fun hx => hn ((hans d).2 (.inr hx)))
    rtold := by
      rw [htold]
      intro d hd hn
      rcases (hans d).1 hn with rfl | hn
      · exact List.mem_cons_self ..
      · exact List.mem_cons_of_mem _ (h.rtold d hd hn)
    ralt := h.ralt
    told := by
      rw [htold]
      intro d hd
      rcases List.mem_cons.1 hd with rfl | hd
      · exact (hans d).2 (.inl rfl)
      · exact (hans d).2 (.inr (h.told d hd))
    cb := by
      have h1 := h.cb
      show List.countP (Worker.inCb s.async) _ = (if c ∈ s.async then false else s.cbLock).toNat
      rw [List.countP_cons] at h1 ⊢
      have h2 : Worker.inCb s.async ⟨.user c, none⟩ = decide (c ∈ s.async) := rfl
      have h3 : Worker.inCb s.async ⟨.told c, none⟩ = false := rfl
      rw [h2] at h1
      rw [h3]
      by_cases hc : c ∈ s.async
      · have : s.cbLock.toNat ≤ 1 := Bool.toNat_le _
        simp only [hc, decide_true, if_true, Bool.false_eq_true, if_false, Bool.toNat_false] at h1 ⊢
        omega
      · simpa [hc] using h1
    stp := fun hs w hw => by
      rcases List.mem_cons.1 hw with rfl | hw
      · simp
      · exact h.stp hs w (List.mem_cons_of_mem _ hw)
    gon := fun hs w hw => by
      rcases List.mem_cons.1 hw with rfl | hw
      · simp
      · exact h.gon hs w (List.mem_cons_of_mem _ hw)
    mx := h.mx
    flu := h.flu }

theorem resume_held {s : State F L} {i c : Nat} (h : WInv s) (hw : s.ws[i]? = some ⟨.told c, none⟩) :
    WInv ((if c ∈ s.reserved then { s with active := s.active + 1, reserved := s.reserved.erase c } else s).put i
      ⟨.scan, none⟩) := by
  refine put_held (w' := ⟨.scan, none⟩)
    (s' := if c ∈ s.reserved then { s with active := s.active + 1, reserved := s.reserved.erase c } else s) hw
    (by split <;> rfl) h (fun r h => ?_)
  have htold : (⟨.told c, none⟩ :: r : List Worker).filterMap Worker.toldOf =
      c :: (⟨.scan, none⟩ :: r : List Worker).filterMap Worker.toldOf := rfl
  have hcb : (⟨.scan, none⟩ :: r : List Worker).countP (Worker.inCb s.async) = s.cbLock.toNat := h.cb
  have hwok : ∀ w ∈ (⟨.scan, none⟩ :: r : List Worker), w.wait ≠ none → s.mayBlock w.place = true := fun w hw hn => by
    rcases List.mem_cons.1 hw with rfl | hw
    · exact absurd rfl hn
    · exact h.wok w (List.mem_cons_of_mem _ hw) hn
  have hstp : s.stop = true → ∀ w ∈ (⟨.scan, none⟩ :: r : List Worker), w.place ≠ .sleep := fun hs w hw => by
    rcases List.mem_cons.1 hw with rfl | hw
    · simp
    · exact h.stp hs w (List.mem_cons_of_mem _ hw)
  have hgon : s.stop = false → ∀ w ∈ (⟨.scan, none⟩ :: r : List Worker), w.place ≠ .gone := fun hs w hw => by
    rcases List.mem_cons.1 hw with rfl | hw
    · simp
    · exact h.gon hs w (List.mem_cons_of_mem _ hw)
  have ht := h.rtold
  have ht' := h.told
  rw [htold] at ht ht'
  split
  · next hc =>
    exact {
      act := by
        have h1 := h.act
        have h2 : (s.reserved.erase c).length = s.reserved.length - 1 := List.length_erase_of_mem hc
        have h3 : 0 < s.reserved.length := List.length_pos_of_mem hc
        have h4 : (⟨.scan, none⟩ :: r : List Worker).countP Worker.awake =
          (⟨.told c, none⟩ :: r : List Worker).countP Worker.awake := rfl
        simp only
        rw [h4]
        omega
      idl := h.idl
      run := h.run
      fin := h.fin
      ret := h.ret
      wnd := h.wnd
      wok := hwok
      wlt := h.wlt
      wext := h.wext
      wres := fun d hd hn => by
        have hne : d ≠ c := fun e => hn (e ▸ ht' c (List.mem_cons_self ..))
        exact (List.mem_erase_of_ne hne).2 (h.wres d hd hn)
      rnd := h.rnd.erase c
      rlt := fun d hd => h.rlt d (List.mem_of_mem_erase hd)
      rwt := fun d hd => h.rwt d (List.mem_of_mem_erase hd)
      rtold := fun d hd hn => by
        have hd' := h.rnd.mem_erase_iff.1 hd
        rcases List.mem_cons.1 (ht d hd'.2 hn) with e | h1
        · exact absurd e hd'.1
        · exact h1
      ralt := fun d hd => h.ralt d (List.mem_of_mem_erase hd)
      told := fun d hd => ht' d (List.mem_cons_of_mem _ hd)
      cb := hcb
      stp := hstp
      gon := hgon
      mx := h.mx
      flu := h.flu }
  · next hc =>
    exact {
      act := h.act
      idl := h.idl
      run := h.run
      fin := h.fin
      ret := h.ret
      wnd := h.wnd
      wok := hwok
      wlt := h.wlt
      wext := h.wext
      wres := h.wres
      rnd := h.rnd
      rlt := h.rlt
      rwt := h.rwt
      rtold := fun d hd hn => by
        rcases List.mem_cons.1 (ht d hd hn) with e | h1
        · subst e; exact absurd hd hc
        · exact h1
      ralt := h.ralt
      told := fun d hd => ht' d (List.mem_cons_of_mem _ hd)
      cb := hcb
      stp := hstp
      gon := hgon
      mx := h.mx
      flu := h.flu }

/-- A worker that was woken up. -/
theorem wake_held {s : State F L} {i : Nat} (h : WInv s) (hw : s.ws[i]? = some ⟨.woken, none⟩) :
    WInv ({ s with idle := s.idle - 1, active := s.active + 1 }.put i ⟨.scan, none⟩) := by
  refine put_held (w' := ⟨.scan, none⟩) (s' := { s with idle := s.idle - 1, active := s.active + 1 }) hw rfl h (fun r h => ?_)
  exact {
    act := by
      have := h.act
      rw [List.countP_cons] at this ⊢
      simp [Worker.awake] at this ⊢
      omega
    idl := by
      have := h.idl
      rw [List.countP_cons] at this ⊢
      simp [Worker.rests] at this ⊢
      omega
    run := h.run
    fin := h.fin
    ret := h.ret
    wnd := h.wnd
    wok := fun w hw hn => by
      rcases List.mem_cons.1 hw with rfl | hw
      · exact absurd rfl hn
      · exact h.wok w (List.mem_cons_of_mem _ hw) hn
    wlt := h.wlt
    wext := h.wext
    wres := h.wres
    rnd := h.rnd
    rlt := h.rlt
    rwt := h.rwt
    rtold := h.rtold
    ralt := h.ralt
    told := h.told
    cb := h.cb
    stp := fun hs w hw => by
      rcases List.mem_cons.1 hw with rfl | hw
      · simp
      · exact h.stp hs w (List.mem_cons_of_mem _ hw)
    gon := fun hs w hw => by
      rcases List.mem_cons.1 hw with rfl | hw
      · simp
      · exact h.gon hs w (List.mem_cons_of_mem _ hw)
    mx := h.mx
    flu := fun _ _ => by rw [awake_scan]; omega }

/-- Asleep or woken up, the counters are the same. -/
theorem nap_held {s : State F L} {i : Nat} {a b : At} (h : WInv s) (hw : s.ws[i]? = some ⟨a, none⟩)
    (ha : a = .sleep ∨ a = .woken) (hb : b = .woken ∨ (b = .sleep ∧ s.stop = false)) :
    WInv (s.put i ⟨b, none⟩) := by
  refine put_held (w' := ⟨b, none⟩) (s' := s) hw rfl h (fun r h => ?_)
  have hb' : b = .sleep ∨ b = .woken := by rcases hb with h | h; exact .inr h; exact .inl h.1
  have hf : ∀ (f : Worker → Option Nat), (f ⟨.sleep, none⟩ = none) → (f ⟨.woken, none⟩ = none) →
      (⟨b, none⟩ :: r : List Worker).filterMap f = (⟨a, none⟩ :: r : List Worker).filterMap f := by
    intro f h1 h2
    have e1 : f ⟨a, none⟩ = none := by rcases ha with rfl | rfl <;> assumption
    have e2 : f ⟨b, none⟩ = none := by rcases hb' with rfl | rfl <;> assumption
    rw [List.filterMap_cons, List.filterMap_cons, e1, e2]
  have hc : ∀ (f : Worker → Bool), f ⟨.sleep, none⟩ = f ⟨.woken, none⟩ →
      (⟨b, none⟩ :: r : List Worker).countP f = (⟨a, none⟩ :: r : List Worker).countP f := by
    intro f h1
    have e1 : f ⟨a, none⟩ = f ⟨.woken, none⟩ := by rcases ha with rfl | rfl; exact h1; rfl
    have e2 : f ⟨b, none⟩ = f ⟨.woken, none⟩ := by rcases hb' with rfl | rfl; exact h1; rfl
    rw [List.countP_cons, List.countP_cons, e1, e2]
  exact {
    act := by rw [hc _ rfl]; exact h.act
    idl := by rw [hc _ rfl]; exact h.idl
    run := by rw [hf _ rfl rfl]; exact h.run
    fin := by rw [hf _ rfl rfl]; exact h.fin
    ret := by rw [hf _ rfl rfl]; exact h.ret
    wnd := h.wnd
    wok := fun w hw hn => by
      rcases List.mem_cons.1 hw with rfl | hw
      · exact absurd rfl hn
      · exact h.wok w (List.mem_cons_of_mem _ hw) hn
    wlt := h.wlt
    wext := h.wext
    wres := h.wres
    rnd := h.rnd
    rlt := h.rlt
    rwt := h.rwt
    rtold := by rw [hf _ rfl rfl]; exact h.rtold
    ralt := h.ralt
    told := by rw [hf _ rfl rfl]; exact h.told
    cb := by rw [hc _ rfl]; exact h.cb
    stp := fun hs w hw => by
      rcases List.mem_cons.1 hw with rfl | hw
      · rcases hb with e | ⟨_, e⟩
        · rw [e]; simp
        · rw [hs] at e; cases e
      · exact h.stp hs w (List.mem_cons_of_mem _ hw)
    gon := fun hs w hw => by
      rcases List.mem_cons.1 hw with rfl | hw
      · rcases hb' with e | e <;> rw [e] <;> simp
      · exact h.gon hs w (List.mem_cons_of_mem _ hw)
    mx := h.mx
    flu := by rw [hc _ rfl]; exact h.flu }

theorem stop_held {s : State F L} (h : WInv s) : WInv { s with stop := true, ws := notifyAll s.ws } := by
  have h0 := h.woke (notifyAll_woke s.ws)
  exact ⟨h0.act, h0.idl, h0.run, h0.fin, h0.ret, h0.wnd, h0.wok, h0.wlt, h0.wext, h0.wres, h0.rnd, h0.rlt, h0.rwt,
    h0.rtold, h0.ralt, h0.told, h0.cb, fun _ w hw => notifyAll_none hw, fun hx => by (cases hx), h0.mx,
    fun _ hx => by (cases hx)⟩

theorem threads_held {s : State F L} {n : Nat} (h : WInv s) (hn : 0 < n) : WInv { s with max := n } :=
  ⟨h.act, h.idl, h.run, h.fin, h.ret, h.wnd, h.wok, h.wlt, h.wext, h.wres, h.rnd, h.rlt, h.rwt, h.rtold, h.ralt, h.told,
    h.cb, h.stp, h.gon, hn, h.flu⟩

theorem init_held (g : Graph F L) {n : Nat} (hn : 0 < n) : WInv (State.init g n) where
  act := rfl
  idl := rfl
  run := .refl _
  fin := .refl _
  ret := .refl _
  wnd := List.nodup_nil
  wok := fun w hw => by cases hw
  wlt := fun c hc => by cases hc
  wext := fun c hc => by cases hc
  wres := fun c hc => by cases hc
  rnd := List.nodup_nil
  rlt := fun c hc => by cases hc
  rwt := fun c hc => by cases hc
  rtold := fun c hc => by cases hc
  ralt := fun c hc => by cases hc
  told := fun c hc => by cases hc
  cb := rfl
  stp := fun _ w hw => by cases hw
  gon := fun _ w hw => by cases hw
  mx := hn
  flu := fun hf => by cases hf

end VS.Work
