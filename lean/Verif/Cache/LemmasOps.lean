import Verif.Cache.Lemmas

/-!
# Each cache operation on the two lists
-/

namespace VS.Cache
open VS

/-- `unlink` on a well formed list. -/
theorem unlink_items (c : Cache) (a b : List Item) (k : Int) (f : Option Frame)
    (hh : c.hash = build none (a ++ (k, f) :: b)) (nd : (keys (a ++ (k, f) :: b)).Nodup)
    (hf : c.first = headKey (a ++ (k, f) :: b)) (hl : c.last = lastKey none (a ++ (k, f) :: b)) :
    unlink c k = .ok (uncount { c with
      hash := build none (a ++ b), first := headKey (a ++ b), last := lastKey none (a ++ b),
      weak := if c.weak = some k then headKey b else c.weak } ⟨f, lastKey none a, headKey b⟩) := by
  have hk : k ∉ keys a := by
    simp only [keys_append, keys_cons, List.nodup_append] at nd
    intro h; exact nd.2.2 _ h _ (List.mem_cons_self ..) rfl
  have hkb : k ∉ keys b := by
    simp only [keys_append, keys_cons, List.nodup_append, List.nodup_cons] at nd
    exact nd.2.1.1
  have hn : node c k = .ok ⟨f, lastKey none a, headKey b⟩ := by
    simp [node, hh, build_at none a b k f hk]
  obtain ⟨h', e1, e2, e3⟩ := detach (weakPast c k ⟨f, lastKey none a, headKey b⟩) a b k f
    (by simp only [weakPast]; split <;> exact hh) nd
  have hfirst : (if c.first = some k then headKey b else c.first) = headKey (a ++ b) := by
    rw [hf]
    cases a with
    | nil => simp
    | cons i a =>
      have : i.1 ≠ k := by intro e; apply hk; simp [e]
      simp [this]
  have hlast : (if c.last = some k then lastKey none a else c.last) = lastKey none (a ++ b) := by
    rw [hl]
    rcases List.eq_nil_or_concat b with rfl | ⟨b', i, rfl⟩
    · simp
    · have : i.1 ≠ k := by intro e; apply hkb; simp [e]
      rw [List.concat_eq_append, ← List.cons_append, ← List.append_assoc, ← List.append_assoc,
        lastKey_concat, lastKey_concat]
      simp [this]
  have hhash : (fun x => if x = k then none else h' x) = build none (a ++ b) := by
    funext x
    by_cases e : x = k
    · subst e
      rw [if_pos rfl, build_none]
      simp [hk, hkb]
    · rw [if_neg e, e3 x e]
  unfold unlink
  simp only [hn, Res.bind_ok]
  have e1' := e1
  generalize setNext (weakPast c k ⟨f, lastKey none a, headKey b⟩) (lastKey none a) (headKey b) = r
    at e1' ⊢
  cases r with
  | ok c1 =>
    simp only [Res.bind_ok] at e1' ⊢
    rw [e1']
    simp only [Res.bind_ok, ← hfirst, ← hlast, ← hhash]
    unfold weakPast lastPast firstPast uncount eraseNode
    by_cases w : c.weak = some k <;> by_cases l : c.last = some k <;>
      by_cases g : c.first = some k <;> cases f <;> simp [w, l, g]
  | err m => cases e1'
  | fatal m => cases e1'
  | ub => cases e1'

theorem headKey_items_nil (hs : List Int) : headKey (items [] hs) = hs.head? := by
  cases hs <;> simp [items]

theorem nodup_erase_mid {α} {a b : List α} {x : α} (h : (a ++ x :: b).Nodup) : (a ++ b).Nodup := by
  rw [List.nodup_append] at h ⊢
  exact ⟨h.1, (List.nodup_cons.1 h.2.1).2, fun y hy z hz => h.2.2 y hy z (List.mem_cons_of_mem _ hz)⟩

/-- Unlinking a node with a frame. -/
theorem unlink_frame {c : Cache} {a b : List (Int × Frame)} {hs k f}
    (r : Rep c (a ++ (k, f) :: b) hs) :
    ∃ c', unlink c k = .ok c' ∧ Rep c' (a ++ b) hs ∧ Same c c' := by
  have e : items (a ++ (k, f) :: b) hs = items a [] ++ (k, some f) :: items b hs := by
    simp [items]
  have e' : items a [] ++ items b hs = items (a ++ b) hs := by simp [items]
  have nd := r.nd
  have hw : c.weak ≠ some k := by
    rw [r.weak]
    intro h
    have hm : k ∈ hs := List.mem_of_mem_head? h
    rw [List.nodup_append] at nd
    exact nd.2.2 k (by simp) k hm rfl
  refine ⟨_, unlink_items c (items a []) (items b hs) k (some f) (by rw [r.hash, e])
    (by rw [← e, keys_items]; exact r.nd) (by rw [r.first, e]) (by rw [r.last, e]), ?_, ?_⟩
  · simp only [uncount, if_neg hw, e']
    refine ⟨rfl, ?_, rfl, r.weak, rfl, ?_, r.hist, ?_⟩
    · simp only [List.map_append, List.map_cons, List.append_assoc, List.cons_append] at nd ⊢
      exact nodup_erase_mid nd
    · simp [r.size]; omega
    · simp [r.bytes]; omega
  · simp only [uncount, if_neg hw]
    exact ⟨rfl, rfl, rfl, rfl, rfl, rfl, rfl, rfl⟩

/-- Unlinking a node without a frame. -/
theorem unlink_hist {c : Cache} {fs} {a b : List Int} {k}
    (r : Rep c fs (a ++ k :: b)) :
    ∃ c', unlink c k = .ok c' ∧ Rep c' fs (a ++ b) ∧ Same c c' := by
  have e : items fs (a ++ k :: b) = items fs a ++ (k, none) :: items [] b := by
    simp [items]
  have e' : items fs a ++ items [] b = items fs (a ++ b) := by simp [items]
  have nd := r.nd
  have ndh : (a ++ k :: b).Nodup := (List.nodup_append.1 nd).2.1
  refine ⟨_, unlink_items c (items fs a) (items [] b) k none (by rw [r.hash, e])
    (by rw [← e, keys_items]; exact r.nd) (by rw [r.first, e]) (by rw [r.last, e]), ?_, ?_⟩
  · simp only [uncount, e']
    refine ⟨rfl, ?_, rfl, ?_, rfl, r.size, ?_, r.bytes⟩
    · rw [← List.append_assoc] at nd ⊢
      exact nodup_erase_mid nd
    · rw [r.weak, headKey_items_nil]
      cases a with
      | nil => simp
      | cons x a =>
        have : x ≠ k := by
          rintro rfl
          simp at ndh
        simp [this]
    · simp [r.hist]; omega
  · simp only [uncount]
    exact ⟨rfl, rfl, rfl, rfl, rfl, rfl, rfl, rfl⟩

/-- `remove`: the key is gone from both lists. -/
theorem remove_rep {c : Cache} {fs hs} (k : Int) (r : Rep c fs hs) :
    ∃ c', remove c k = .ok c' ∧ Rep c' (fs.filter (fun p => p.1 ≠ k)) (hs.filter (· ≠ k)) ∧
      Same c c' := by
  have filt : ∀ {a : List Int}, k ∉ a → a.filter (· ≠ k) = a := by
    intro a h
    rw [List.filter_eq_self]
    intro x hx
    have : x ≠ k := by rintro rfl; exact h hx
    simpa using this
  have filtF : ∀ {a : List (Int × Frame)}, k ∉ a.map (·.1) → a.filter (fun p => p.1 ≠ k) = a := by
    intro a h
    rw [List.filter_eq_self]
    intro x hx
    have : x.1 ≠ k := by rintro rfl; exact h (List.mem_map_of_mem hx)
    simpa using this
  unfold remove
  by_cases h1 : k ∈ fs.map (·.1)
  · obtain ⟨a, f, b, rfl⟩ := mem_split h1
    rw [r.at]
    obtain ⟨c', e, r', s⟩ := unlink_frame r
    refine ⟨c', e, ?_, s⟩
    have nd := r.nd
    rw [List.nodup_append] at nd
    have hkh : k ∉ hs := fun h => nd.2.2 k h1 k h rfl
    have nd1 := nd.1
    simp only [List.map_append, List.map_cons, List.nodup_append, List.nodup_cons] at nd1
    have hka : k ∉ a.map (·.1) := fun h => nd1.2.2 k h k (by simp) rfl
    have hkb : k ∉ b.map (·.1) := nd1.2.1.1
    rw [filt hkh, List.filter_append, List.filter_cons, filtF hka, filtF hkb]
    simpa using r'
  · by_cases h2 : k ∈ hs
    · obtain ⟨a, b, rfl⟩ := List.append_of_mem h2
      rw [r.atHist]
      obtain ⟨c', e, r', s⟩ := unlink_hist r
      refine ⟨c', e, ?_, s⟩
      have nd := (List.nodup_append.1 r.nd).2.1
      rw [List.nodup_append, List.nodup_cons] at nd
      have hka : k ∉ a := fun h => nd.2.2 k h k (by simp) rfl
      have hkb : k ∉ b := nd.2.1.1
      rw [filtF h1, List.filter_append, List.filter_cons, filt hka, filt hkb]
      simpa using r'
    · rw [r.none h1 h2]
      refine ⟨c, rfl, ?_, Same.refl c⟩
      rw [filtF h1, filt h2]
      exact r

theorem build_set (p : Option Int) (a b : List Item) (k : Int) (f g : Option Frame)
    (hk : k ∉ keys a) :
    (fun x => if x = k then some ⟨g, lastKey p a, headKey b⟩ else build p (a ++ (k, f) :: b) x) =
      build p (a ++ (k, g) :: b) := by
  funext x
  by_cases e : x = k
  · subst e; rw [if_pos rfl, build_at _ _ _ _ _ hk]
  · rw [if_neg e]
    by_cases m : x ∈ keys a
    · exact build_left _ _ _ _ _ m rfl
    · rw [build_right _ _ _ _ m, build_right _ _ _ _ m]
      simp [build, e]

/-- Put an item in front of a list. -/
theorem build_push (l : List Item) (k : Int)
    (hk : k ∉ keys l) (c : Cache) (hc : ∀ x, x ≠ k → c.hash x = build none l x)
    (nd : (keys l).Nodup) :
    ∃ h', setPrev c (headKey l) (some k) = .ok { c with hash := h' } ∧ h' k = c.hash k ∧
      ∀ x, x ≠ k → h' x = build (some k) l x := by
  cases l with
  | nil => exact ⟨c.hash, rfl, rfl, fun x hx => by rw [hc x hx]; rfl⟩
  | cons i l =>
    obtain ⟨ki, fi⟩ := i
    have hne : ki ≠ k := by intro e; apply hk; simp [e]
    have hi : c.hash ki = some ⟨fi, none, headKey l⟩ := by rw [hc ki hne]; simp [build]
    refine ⟨fun x => if x = ki then some ⟨fi, some k, headKey l⟩ else c.hash x, ?_, ?_, ?_⟩
    · simp [setPrev, node, hi, putNode]
    · simp [Ne.symm hne]
    · intro x hx
      by_cases e : x = ki
      · simp [e, build]
      · simp [e, build, hc x hx]

theorem pushFront_rep {c : Cache} {fs hs} {k : Int} {f : Frame} (r : Rep c fs hs)
    (h1 : k ∉ fs.map (·.1)) (h2 : k ∉ hs) :
    ∃ c', pushFront c k f = .ok c' ∧ Rep c' ((k, f) :: fs) hs ∧ Same c c' := by
  have hk : k ∉ keys (items fs hs) := by
    rw [keys_items, List.mem_append]; exact fun h => h.elim h1 h2
  obtain ⟨h', e1, e2, e3⟩ := build_push (items fs hs) k hk
    { c with hash := fun x => if x = k then some ⟨some f, none, none⟩ else c.hash x,
             currentSize := c.currentSize + 1, currentBytes := c.currentBytes + f.bytes }
    (by intro x hx; simp only [if_neg hx]; rw [r.hash]) (by rw [keys_items]; exact r.nd)
  simp only [if_true] at e2
  refine ⟨{ c with
      hash := fun x => if x = k then some ⟨some f, none, c.first⟩ else h' x,
      currentSize := c.currentSize + 1, currentBytes := c.currentBytes + f.bytes,
      first := some k, last := if c.last = none then some k else c.last }, ?_, ?_, ?_⟩
  · unfold pushFront
    rw [← r.first] at e1
    simp only [e1, Res.bind_ok, node, e2, putNode]
    rfl
  · refine ⟨?_, ?_, rfl, r.weak, ?_, ?_, r.hist, ?_⟩
    · funext x
      have : items ((k, f) :: fs) hs = (k, some f) :: items fs hs := by simp [items]
      simp only [this, build]
      by_cases e : x = k
      · simp [e, r.first]
      · simp only [if_neg e]; exact e3 x e
    · simp only [List.map_cons, List.cons_append, List.nodup_cons, List.mem_append]
      exact ⟨fun h => h.elim h1 h2, r.nd⟩
    · have : items ((k, f) :: fs) hs = (k, some f) :: items fs hs := by simp [items]
      simp only [this, lastKey_cons, r.last]
      rcases List.eq_nil_or_concat (items fs hs) with e | ⟨l, i, e⟩
      · rw [e]; simp
      · rw [e, List.concat_eq_append]; simp
    · simp [r.size]
    · simp [r.bytes]; omega
  · exact ⟨rfl, rfl, rfl, rfl, rfl, rfl, rfl, rfl⟩

/-! ## Eviction -/

theorem nextWeak_rep {c : Cache} {fs : List (Int × Frame)} {hs k f} (r : Rep c (fs ++ [(k, f)]) hs) :
    nextWeak c = .ok (some k) := by
  unfold nextWeak
  rw [r.weak]
  cases hs with
  | nil =>
    simp only [List.head?_nil, r.last]
    have : items (fs ++ [(k, f)]) [] = items fs [] ++ [(k, some f)] := by simp [items]
    rw [this, lastKey_concat]
  | cons x hs =>
    simp only [List.head?_cons]
    have r' : Rep c (fs ++ [(k, f)]) ([] ++ x :: hs) := r
    have : items (fs ++ [(k, f)]) [] = items fs [] ++ [(k, some f)] := by simp [items]
    simp only [node, r'.atHist, Res.bind_ok, this, lastKey_concat]

theorem evictOne_rep {c : Cache} {fs : List (Int × Frame)} {hs k f}
    (r : Rep c (fs ++ [(k, f)]) hs) :
    ∃ c', evictOne c = .ok (c', f.bytes) ∧ Rep c' fs (k :: hs) ∧ Same c c' := by
  have hn : c.hash k = some ⟨some f, lastKey none (items fs []), headKey (items [] hs)⟩ := r.at
  have nd := r.nd
  have hk : k ∉ keys (items fs []) := by
    simp only [List.map_append, List.map_cons, List.map_nil, List.append_assoc,
      List.nodup_append] at nd
    intro h
    exact nd.2.2 k (by simpa using h) k (by simp) rfl
  refine ⟨{ putNode c k ⟨none, lastKey none (items fs []), headKey (items [] hs)⟩ with
    currentBytes := c.currentBytes - f.bytes, weak := some k,
    currentSize := c.currentSize - 1, historySize := c.historySize + 1 }, ?_, ?_, ?_⟩
  · unfold evictOne
    rw [nextWeak_rep r]
    simp [dropFrame, node, hn, putNode, frameBytes]
  · have e1 : items (fs ++ [(k, f)]) hs = items fs [] ++ (k, some f) :: items [] hs := by
      simp [items]
    have e2 : items fs (k :: hs) = items fs [] ++ (k, none) :: items [] hs := by
      simp [items]
    refine ⟨?_, ?_, ?_, rfl, ?_, ?_, ?_, ?_⟩
    · simp only [putNode]
      rw [r.hash, e1, e2]
      exact build_set none _ _ k (some f) none hk
    · simpa using nd
    · simp only [putNode]
      rw [r.first, e1, e2]
      cases h : items fs [] <;> simp
    · simp only [putNode]
      rw [r.last, e1, e2]
      rcases List.eq_nil_or_concat (items [] hs) with e | ⟨l, i, e⟩
      · rw [e]; simp
      · rw [e, List.concat_eq_append, ← List.cons_append, ← List.append_assoc, lastKey_concat,
          ← List.cons_append, ← List.append_assoc, lastKey_concat]
    · simp [putNode, r.size]
    · simp [putNode, r.hist]
    · simp [putNode, r.bytes]
  · exact ⟨rfl, rfl, rfl, rfl, rfl, rfl, rfl, rfl⟩

/-- How many frames survive the first eviction loop, the bytes freed, and why it stopped. -/
structure Kept (fs : List (Int × Frame)) (maxCount : Nat) (budget : Option Nat) (freed0 : Nat)
    (m total : Nat) : Prop where
  le : m ≤ fs.length
  ge : min maxCount fs.length ≤ m
  freed : total = freed0 + sumBytes (fs.drop m)
  stop : m ≤ maxCount ∨ underBudget budget total = false
  need : m < fs.length → ∃ p, fs[m]? = some p ∧
    underBudget budget (freed0 + sumBytes (fs.drop (m + 1))) = true

theorem evictLoop_rep (maxCount : Nat) (budget : Option Nat) :
    ∀ (n : Nat) (c : Cache) (fs hs) (freed : Nat), n = fs.length - maxCount → Rep c fs hs →
    ∃ m freed' c', evictLoop maxCount budget n c freed = .ok (c', freed') ∧
      Kept fs maxCount budget freed m freed' ∧
      Rep c' (fs.take m) ((fs.drop m).map (·.1) ++ hs) ∧ Same c c' := by
  intro n
  induction n with
  | zero =>
    intro c fs hs freed hn r
    refine ⟨fs.length, freed, c, rfl, ⟨Nat.le_refl _, by omega, by simp, Or.inl (by omega),
      fun h => absurd h (Nat.lt_irrefl _)⟩, by simpa using r, Same.refl c⟩
  | succ n ih =>
    intro c fs hs freed hn r
    unfold evictLoop
    by_cases hb : underBudget budget freed = true
    · rw [if_pos ⟨by rw [r.size]; omega, hb⟩]
      rcases List.eq_nil_or_concat fs with rfl | ⟨l, ⟨k, f⟩, hl⟩
      · simp at hn
      · rw [List.concat_eq_append] at hl
        subst hl
        obtain ⟨c1, e1, r1, s1⟩ := evictOne_rep r
        obtain ⟨m, freed', c', e2, hk, r2, s2⟩ := ih c1 l (k :: hs) (freed + f.bytes)
          (by simp at hn; omega) r1
        simp only [e1, Res.bind_ok]
        refine ⟨m, freed', c', e2, ?_, ?_, s1.trans s2⟩
        · have hle := hk.le
          refine ⟨by simp; omega, ?_, ?_, hk.stop, ?_⟩
          · have := hk.ge
            simp at hn ⊢
            omega
          · rw [hk.freed, List.drop_append_of_le_length hle, sumBytes_append]
            simp; omega
          · intro hlt
            by_cases e : m = l.length
            · subst e
              refine ⟨(k, f), by simp, ?_⟩
              simpa using hb
            · have hlt' : m < l.length := by omega
              obtain ⟨p, hp, hq⟩ := hk.need hlt'
              refine ⟨p, by rw [List.getElem?_append_left hlt']; exact hp, ?_⟩
              rw [List.drop_append_of_le_length (by omega), sumBytes_append]
              simp only [sumBytes_cons, sumBytes_nil, Nat.add_zero]
              rw [Nat.add_right_comm, Nat.add_assoc, ] at hq
              rw [← hq]
        · have hle := hk.le
          rw [List.take_append_of_le_length hle, List.drop_append_of_le_length hle]
          simpa using r2
    · rw [if_neg (fun h => hb h.2)]
      refine ⟨fs.length, freed, c, rfl, ⟨Nat.le_refl _, by omega, by simp, Or.inr (by simpa using hb),
        fun h => absurd h (Nat.lt_irrefl _)⟩, by simpa using r, Same.refl c⟩

theorem historyLoop_rep : ∀ (n : Nat) (c : Cache) (fs hs), 0 ≤ c.maxHistory →
    n = (c.historySize - c.maxHistory).toNat → Rep c fs hs →
    ∃ c', historyLoop n c = .ok c' ∧ Rep c' fs (hs.take c.maxHistory.toNat) ∧ Same c c' := by
  intro n
  induction n with
  | zero =>
    intro c fs hs h0 hn r
    have hle : hs.length ≤ c.maxHistory.toNat := by rw [r.hist] at hn; omega
    unfold historyLoop
    rw [List.take_of_length_le hle]
    cases e : c.last with
    | none => exact ⟨c, rfl, r, Same.refl c⟩
    | some k =>
      simp only
      rw [if_neg (by rw [r.hist]; omega)]
      exact ⟨c, rfl, r, Same.refl c⟩
  | succ n ih =>
    intro c fs hs h0 hn r
    have hlt : c.maxHistory.toNat < hs.length := by rw [r.hist] at hn; omega
    rcases List.eq_nil_or_concat hs with rfl | ⟨l, k, hl⟩
    · simp at hlt
    · rw [List.concat_eq_append] at hl
      subst hl
      have hlast : c.last = some k := by
        rw [r.last]
        have : items fs (l ++ [k]) = items fs l ++ [(k, none)] := by simp [items]
        rw [this, lastKey_concat]
      unfold historyLoop
      rw [hlast]
      simp only
      rw [if_pos (by rw [r.hist]; omega)]
      obtain ⟨c1, e1, r1, s1⟩ := unlink_hist r
      rw [List.append_nil] at r1
      obtain ⟨c', e2, r2, s2⟩ := ih c1 fs l (by rw [s1.maxHistory]; exact h0)
        (by have := r.hist; have h3 := r1.hist
            rw [s1.maxHistory]
            simp only [List.length_append, List.length_cons, List.length_nil] at this
            omega) r1
      refine ⟨c', by simp only [e1, Res.bind_ok]; exact e2, ?_, s1.trans s2⟩
      rw [s1.maxHistory] at r2
      rw [List.take_append_of_le_length (by simp at hlt; omega)]
      exact r2

/-- `evictFrames`. -/
theorem evictFrames_rep {c : Cache} {fs hs} (maxCount : Nat) (budget : Option Nat)
    (h0 : 0 ≤ c.maxHistory) (r : Rep c fs hs) :
    ∃ m freed c', evictFrames c maxCount budget = .ok (c', freed) ∧
      Kept fs maxCount budget 0 m freed ∧
      Rep c' (fs.take m) (((fs.drop m).map (·.1) ++ hs).take c.maxHistory.toNat) ∧ Same c c' := by
  obtain ⟨m, freed, c1, e1, hk, r1, s1⟩ := evictLoop_rep maxCount budget
    (c.currentSize - maxCount).toNat c fs hs 0 (by rw [r.size]; omega) r
  obtain ⟨c2, e2, r2, s2⟩ := historyLoop_rep (c1.historySize - c1.maxHistory).toNat c1 _ _
    (by rw [s1.maxHistory]; exact h0) rfl r1
  refine ⟨m, freed, c2, ?_, hk, by rw [s1.maxHistory] at r2; exact r2, s1.trans s2⟩
  unfold evictFrames
  simp only [e1, Res.bind_ok, e2]

/-- Without a byte limit exactly the first `maxCount` frames survive. -/
theorem evictAll_rep {c : Cache} {fs hs} (maxCount : Nat)
    (h0 : 0 ≤ c.maxHistory) (r : Rep c fs hs) :
    ∃ freed c', evictFrames c maxCount none = .ok (c', freed) ∧
      Rep c' (fs.take maxCount)
        (((fs.drop maxCount).map (·.1) ++ hs).take c.maxHistory.toNat) ∧ Same c c' := by
  obtain ⟨m, freed, c', e, hk, r', s⟩ := evictFrames_rep maxCount none h0 r
  refine ⟨freed, c', e, ?_, s⟩
  have h1 := hk.le
  have h2 := hk.ge
  have h3 := hk.stop
  simp [underBudget] at h3
  have : m = min maxCount fs.length := by omega
  by_cases hle : maxCount ≤ fs.length
  · have : m = maxCount := by omega
    subst this; exact r'
  · have e1 : fs.take maxCount = fs.take m := by
      rw [List.take_of_length_le (by omega), List.take_of_length_le (by omega)]
    have e2 : fs.drop maxCount = fs.drop m := by
      rw [List.drop_of_length_le (by omega), List.drop_of_length_le (by omega)]
    rw [e1, e2]; exact r'

/-! ## Hits -/

theorem moveFront_rep {c : Cache} {a b : List (Int × Frame)} {hs k f}
    (r : Rep c (a ++ (k, f) :: b) hs) :
    ∃ c', moveFront c k ⟨some f, lastKey none (items a []), headKey (items b hs)⟩ = .ok c' ∧
      Rep c' ((k, f) :: (a ++ b)) hs ∧ Same c c' := by
  have e : items (a ++ (k, f) :: b) hs = items a [] ++ (k, some f) :: items b hs := by
    simp [items]
  have e' : items a [] ++ items b hs = items (a ++ b) hs := by simp [items]
  have nd := r.nd
  unfold moveFront
  rcases a with _ | ⟨⟨k0, f0⟩, a⟩
  · have hfirst : c.first = some k := by rw [r.first, e]; simp [items]
    rw [if_pos hfirst]
    exact ⟨c, rfl, r, Same.refl c⟩
  · have hne : k0 ≠ k := by
      rintro rfl
      simp at nd
    have hfirst : c.first = some k0 := by rw [r.first, e]; simp [items]
    rw [if_neg (by rw [hfirst]; simpa using hne)]
    have ndi : (keys (items ((k0, f0) :: a) [] ++ (k, some f) :: items b hs)).Nodup := by
      rw [← e, keys_items]; exact nd
    obtain ⟨h', e1, e2, e3⟩ := detach c (items ((k0, f0) :: a) []) (items b hs) k (some f)
      (by rw [r.hash, e]) ndi
    rw [e'] at e3
    have hkab : k ∉ keys (items ((k0, f0) :: a ++ b) hs) := by
      rw [← e']
      simp only [keys_append, keys_cons, List.nodup_append, List.nodup_cons] at ndi
      simp only [keys_append, List.mem_append, not_or]
      exact ⟨fun h => ndi.2.2 _ h k (by simp) rfl, ndi.2.1.1⟩
    have ndab : (keys (items ((k0, f0) :: a ++ b) hs)).Nodup := by
      rw [← e']
      rw [keys_append, keys_cons] at ndi
      rw [keys_append]
      exact nodup_erase_mid ndi
    have hlast : (if c.last = some k then lastKey none (items ((k0, f0) :: a) []) else c.last) =
        lastKey (some k) (items ((k0, f0) :: a ++ b) hs) := by
      rw [r.last, e, ← e']
      rcases List.eq_nil_or_concat (items b hs) with e4 | ⟨l, i, e4⟩
      · rw [e4]
        simp only [lastKey_concat, if_true, List.append_nil]
        have : items ((k0, f0) :: a) [] = (k0, some f0) :: items a [] := by simp [items]
        rw [this, lastKey_cons, lastKey_cons]
      · rw [List.concat_eq_append] at e4
        have hi : i.1 ≠ k := by
          intro h
          apply hkab
          rw [← e', e4]; simp [h]
        rw [e4, ← List.cons_append, ← List.append_assoc, ← List.append_assoc, lastKey_concat,
          lastKey_concat]
        simp [hi]
    obtain ⟨h2, g1, g2, g3⟩ := build_push (items ((k0, f0) :: a ++ b) hs) k hkab
      { c with hash := fun x => if x = k then some ⟨some f, none, some k0⟩ else h' x,
               last := lastKey (some k) (items ((k0, f0) :: a ++ b) hs) }
      (by intro x hx; simp only [if_neg hx]; exact e3 x hx) ndab
    simp only [if_true] at g2
    have hhead : headKey (items ((k0, f0) :: a ++ b) hs) = some k0 := by simp [items]
    rw [hhead] at g1
    refine ⟨{ c with hash := h2, last := lastKey (some k) (items ((k0, f0) :: a ++ b) hs),
                     first := some k }, ?_, ?_, ?_⟩
    · have e1' := e1
      generalize setNext c (lastKey none (items ((k0, f0) :: a) [])) (headKey (items b hs)) = q
        at e1' ⊢
      cases q with
      | ok c1 =>
        simp only [Res.bind_ok] at e1' ⊢
        rw [e1']
        simp only [Res.bind_ok, lastPast]
        have hl2 : (if c.last = some k then
            ({ c with hash := h', last := lastKey none (items ((k0, f0) :: a) []) } : Cache)
            else { c with hash := h' }) =
            { c with hash := h', last := lastKey (some k) (items ((k0, f0) :: a ++ b) hs) } := by
          rw [← hlast]
          by_cases h : c.last = some k <;> simp [h]
        rw [hl2]
        rw [← hfirst] at g1
        simp only [node, e2, Res.bind_ok, putNode]
        rw [if_neg (by rw [hfirst]; simp)]
        simp only [g1, Res.bind_ok]
      | err m => cases e1'
      | fatal m => cases e1'
      | ub => cases e1'
    · refine ⟨?_, ?_, rfl, r.weak, ?_, ?_, r.hist, ?_⟩
      · funext x
        have : items ((k, f) :: ((k0, f0) :: a ++ b)) hs =
            (k, some f) :: items ((k0, f0) :: a ++ b) hs := by simp [items]
        rw [this]
        simp only [build, hhead]
        by_cases h : x = k
        · rw [if_pos h, h, g2]
        · rw [if_neg h]; exact g3 x h
      · rw [keys_items] at hkab ndab
        have : ((k, f) :: ((k0, f0) :: a ++ b)).map (·.1) ++ hs =
          k :: (((k0, f0) :: a ++ b).map (·.1) ++ hs) := by simp
        rw [this, List.nodup_cons]
        exact ⟨hkab, ndab⟩
      · have : items ((k, f) :: ((k0, f0) :: a ++ b)) hs =
            (k, some f) :: items ((k0, f0) :: a ++ b) hs := by simp [items]
        rw [this, lastKey_cons]
      · have := r.size
        simp at this ⊢; omega
      · have := r.bytes
        simp at this ⊢; omega
    · exact ⟨rfl, rfl, rfl, rfl, rfl, rfl, rfl, rfl⟩

/-- A hit. -/
theorem object_hit {c : Cache} {a b : List (Int × Frame)} {hs k f}
    (r : Rep c (a ++ (k, f) :: b) hs) (h1 : c.currentSize ≤ c.maxSize)
    (h2 : c.historySize ≤ c.maxHistory) :
    ∃ c', object c k = .ok (c', some f) ∧ Rep c' ((k, f) :: (a ++ b)) hs ∧
      Same { c with hits := c.hits + 1 } c' := by
  have nd := r.nd
  have hw : c.weak ≠ some k := by
    rw [r.weak]
    intro h
    have hm : k ∈ hs := List.mem_of_mem_head? h
    rw [List.nodup_append] at nd
    exact nd.2.2 k (by simp) k hm rfl
  have r1 : Rep { c with hits := c.hits + 1 } (a ++ (k, f) :: b) hs :=
    ⟨r.hash, r.nd, r.first, r.weak, r.last, r.size, r.hist, r.bytes⟩
  obtain ⟨c', e, r', s⟩ := moveFront_rep r1
  refine ⟨c', ?_, r', s⟩
  have hreb : rebalance c' false = .ok c' := by
    unfold rebalance
    have e1 : c'.currentSize = c.currentSize := by rw [r'.size, r.size]; simp; omega
    have e2 : c'.historySize = c.historySize := by rw [r'.hist, r.hist]
    have e3 := s.maxSize
    have e4 := s.maxHistory
    simp only at e3 e4
    cases c'.weak with
    | none => simp only; rw [if_neg (by omega)]
    | some w => simp only; rw [if_neg (by intro h; rcases h with h | h; cases h; omega)]
  have hn : c'.hash k = some ⟨some f, none, headKey (items (a ++ b) hs)⟩ :=
    Rep.at (a := []) r'
  unfold object
  rw [r.at]
  simp only [weakPast, if_neg hw, e, Res.bind_ok]
  rw [decide_eq_false hw, hreb]
  simp only [Res.bind_ok, node, hn]

theorem object_near {c : Cache} {fs} {hs : List Int} {k} (r : Rep c fs hs) (h : k ∈ hs) :
    object c k = .ok ({ c with nearMiss := c.nearMiss + 1 }, none) := by
  obtain ⟨a, b, rfl⟩ := List.append_of_mem h
  unfold object
  rw [r.atHist]

theorem object_far {c : Cache} {fs} {hs : List Int} {k : Int} (r : Rep c fs hs)
    (h1 : k ∉ fs.map (·.1)) (h2 : k ∉ hs) :
    object c k = .ok ({ c with farMiss := c.farMiss + 1 }, none) := by
  unfold object
  rw [r.none h1 h2]

end VS.Cache
