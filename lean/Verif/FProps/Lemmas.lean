import Verif.FProps.Spec
import Verif.Map.PropsRead

/-!
# Lemmas: calls of the map API inside of filters
-/

namespace VS.FProps
open VS VS.Map VS.Map.Spec VS.FProps.Spec

/-- The history can go on like this. -/
def Ext (ops : List Op) (w : World) (s : State) : Prop := ∃ more, Leads (ops ++ more) w s

theorem Ext.refl {ops : List Op} {w : World} {s : State} (h : Leads ops w s) : Ext ops w s :=
  ⟨[], by simpa using h⟩

theorem Ext.step {ops : List Op} {w : World} {s s' : State} {op : Op} {o : Out} (h : Ext ops w s)
    (he : Spec.step s op = .ok (s', o)) : ∃ w', Map.step w op = .ok (w', o) ∧ Ext ops w' s' := by
  obtain ⟨more, h⟩ := h
  obtain ⟨w', h1, h2⟩ := h.snoc he
  exact ⟨w', h1, more ++ [op], by simpa using h2⟩

theorem Ext.sim {ops : List Op} {w : World} {s : State} (h : Ext ops w s) : Sim w s := by
  obtain ⟨_, h⟩ := h; exact h.sim

theorem Ext.gives {ops : List Op} {w' : World} {s s' : State} {r : Res (World × Nat)} (h : Ext ops w' s')
    (hr : r = .ok (w', s.length)) : Gives ops s r s' := by
  obtain ⟨more, h⟩ := h; exact ⟨w', more, hr, h⟩

theorem retUnit_inv {r : Res World} {w' : World} {o : Out} (h : retUnit r = .ok (w', o)) : r = .ok w' := by
  cases r <;> simp_all [retUnit]

theorem retCode_inv {r : Res (World × Int)} {w' : World} {c : Int} (h : retCode r = .ok (w', .code c)) :
    r = .ok (w', c) := by
  cases r with
  | ok p => simp [retCode] at h; cases p; simp_all
  | err m => simp [retCode] at h
  | fatal m => simp [retCode] at h
  | ub => simp [retCode] at h

theorem retRead_inv {α : Type} {w w' : World} {f : α → Out} {r : Res α} {o : Out} (h : retRead w f r = .ok (w', o)) :
    w' = w ∧ ∃ a, r = .ok a ∧ f a = o := by
  cases r with
  | ok p => simp [retRead] at h; exact ⟨h.1.symm, p, rfl, h.2⟩
  | err m => simp [retRead] at h
  | fatal m => simp [retRead] at h
  | ub => simp [retRead] at h

theorem look_of {s : State} {m : Nat} {d : Dict} (h : s[m]? = some (some d)) : look s m = .ok d := by
  simp [look, h]

theorem upd_last (s : State) (d : Option Dict) (e : Option Dict) : upd (s ++ [d]) s.length e = s ++ [e] := by
  simp [upd]

theorem get_last (s : State) (d : Option Dict) : (s ++ [d])[s.length]? = some d := by simp

theorem get_other {s : State} {m : Nat} {e d : Option Dict} (h : s[m]? = some d) : (s ++ [e])[m]? = some d := by
  rw [List.getElem?_append_left (List.getElem?_eq_some_iff.mp h).1, h]

/-! ## The calls -/

theorem copyFrame_ext {ops : List Op} {w : World} {s : State} {src : Nat} {d : Dict} (h : Ext ops w s)
    (hd : s[src]? = some (some d)) :
    ∃ w', copyFrame w src = .ok (w', s.length) ∧ Ext ops w' (s ++ [some d]) := by
  obtain ⟨w1, h1, e1⟩ := h.step (op := .create) (s' := s ++ [some Dict.empty]) (o := .handle s.length) rfl
  have hlt := (List.getElem?_eq_some_iff.mp hd).1
  have hne : src ≠ s.length := by omega
  obtain ⟨w2, h2, e2⟩ := e1.step (op := .assign s.length src) (s' := s ++ [some d]) (o := .unit) (by
    simp only [Spec.step, if_neg hne, look_of (get_last s _), look_of (get_other hd), Res.bind_ok, upd_last])
  refine ⟨w2, ?_, e2⟩
  simp only [Map.step, retHandle, Res.bind_ok, Res.ok.injEq, Prod.mk.injEq, Out.handle.injEq] at h1
  have h2 := retUnit_inv h2
  simp only [copyFrame, h1.1, h1.2, h2, Res.bind_ok]

theorem set_none_get {s : State} {a b : Nat} {x : Option Dict} (hb : s[b]? = some x) (hne : a ≠ b) :
    (s.set a none)[b]? = some x := by
  rw [List.getElem?_set_ne hne, hb]

theorem freeFrame_ext {ops : List Op} {w : World} {s : State} {src : Nat} {d : Dict} (last : Bool) (h : Ext ops w s)
    (hd : s[src]? = some (some d)) :
    ∃ w', freeFrame last w src = .ok w' ∧ Ext ops w' (if last then s.set src none else s) := by
  cases last with
  | false => exact ⟨w, rfl, h⟩
  | true =>
    obtain ⟨w1, h1, e1⟩ := h.step (op := .free src) (s' := s.set src none) (o := .unit) (by
      simp only [Spec.step, look_of hd, Res.bind_ok, upd])
    exact ⟨w1, retUnit_inv h1, e1⟩

/-- Copy the frame and let go of the source. -/
theorem start_ext {ops : List Op} {w : World} {s : State} {src : Nat} {d : Dict} (last : Bool) (h : Leads ops w s)
    (hd : s[src]? = some (some d)) :
    ∃ w1 w2, copyFrame w src = .ok (w1, s.length) ∧ freeFrame last w1 src = .ok w2 ∧
      Ext ops w2 (after s src last d) := by
  obtain ⟨w1, h1, e1⟩ := copyFrame_ext (Ext.refl h) hd
  obtain ⟨w2, h2, e2⟩ := freeFrame_ext last e1 (get_other hd)
  refine ⟨w1, w2, h1, h2, ?_⟩
  have hlt := (List.getElem?_eq_some_iff.mp hd).1
  cases last with
  | false => exact e2
  | true =>
    simp only [if_true] at e2
    rw [List.set_append_left _ _ hlt] at e2
    exact e2

theorem after_len (s : State) (src : Nat) (last : Bool) : (if last then s.set src none else s).length = s.length := by
  cases last <;> simp

theorem after_get (s : State) (src : Nat) (last : Bool) (d : Dict) :
    (after s src last d)[s.length]? = some (some d) := by
  unfold after
  rw [← after_len s src last]
  exact get_last _ _

theorem after_upd (s : State) (src : Nat) (last : Bool) (d e : Dict) :
    upd (after s src last d) s.length (some e) = after s src last e := by
  unfold after
  rw [← after_len s src last]
  exact upd_last _ _ _

theorem after_other {s : State} {src m : Nat} {last : Bool} {d e : Dict} (h : s[m]? = some (some e))
    (hm : src ≠ m ∨ last = false) : (after s src last d)[m]? = some (some e) := by
  unfold after
  apply get_other
  cases last with
  | false => exact h
  | true => exact set_none_get h (by simpa using hm)

end VS.FProps
