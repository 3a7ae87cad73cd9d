import Verif.Cache.Model

/-!
# The linked list of the cache stands for two lists

Proof machinery: `Rep c fs hs` says that the pointers of `c` describe the list of frames `fs`
(most recently used first) followed by the remembered keys `hs`.
-/

namespace VS.Cache
open VS

/-- An entry of the linked list. -/
abbrev Item := Int × Option Frame

def keys (l : List Item) : List Int := l.map (·.1)
def headKey (l : List Item) : Option Int := (keys l).head?
def lastKey (p : Option Int) (l : List Item) : Option Int := (keys l).getLast?.or p

/-- The hash table of a well formed list with predecessor `p`. -/
def build (p : Option Int) : List Item → Int → Option Node
  | [], _ => none
  | (k, f) :: t, x => if x = k then some ⟨f, p, headKey t⟩ else build (some k) t x

@[simp] theorem keys_nil : keys [] = [] := rfl
@[simp] theorem keys_cons (i : Item) (l) : keys (i :: l) = i.1 :: keys l := rfl
@[simp] theorem keys_append (a b) : keys (a ++ b) = keys a ++ keys b := by simp [keys]
@[simp] theorem headKey_nil : headKey [] = none := rfl
@[simp] theorem headKey_cons (i : Item) (l) : headKey (i :: l) = some i.1 := rfl
@[simp] theorem lastKey_nil (p) : lastKey p [] = p := rfl
@[simp] theorem lastKey_concat (p) (a) (i : Item) : lastKey p (a ++ [i]) = some i.1 := by
  simp [lastKey]
theorem lastKey_cons (p) (i : Item) (l) : lastKey p (i :: l) = lastKey (some i.1) l := by
  cases l with
  | nil => simp [lastKey]
  | cons j l => simp [lastKey]
                cases h : (keys l).getLast? <;> simp [List.getLast?_cons]

theorem build_none : ∀ (p : Option Int) (l : List Item) (x : Int), x ∉ keys l → build p l x = none
  | _, [], _, _ => rfl
  | p, (k, f) :: t, x, h => by
    simp only [keys_cons, List.mem_cons, not_or] at h
    simp only [build, if_neg h.1]
    exact build_none _ t x h.2

theorem build_at : ∀ (p : Option Int) (a b : List Item) (k : Int) (f : Option Frame), k ∉ keys a →
    build p (a ++ (k, f) :: b) k = some ⟨f, lastKey p a, headKey b⟩
  | p, [], b, k, f, _ => by simp [build]
  | p, (k', f') :: a, b, k, f, h => by
    simp only [keys_cons, List.mem_cons, not_or] at h
    simp only [List.cons_append, build, if_neg h.1]
    rw [build_at _ a b k f h.2, lastKey_cons]

theorem build_left : ∀ (p : Option Int) (a b c : List Item) (x : Int), x ∈ keys a →
    headKey b = headKey c → build p (a ++ b) x = build p (a ++ c) x
  | _, [], _, _, _, h, _ => by simp at h
  | p, (k, f) :: a, b, c, x, h, hh => by
    simp only [List.cons_append, build]
    by_cases e : x = k
    · simp only [e, if_true]
      cases a with
      | nil => simp [hh]
      | cons i a => simp
    · simp only [if_neg e]
      simp only [keys_cons, List.mem_cons] at h
      exact build_left _ a b c x (h.resolve_left e) hh

theorem build_right : ∀ (p : Option Int) (a b : List Item) (x : Int), x ∉ keys a →
    build p (a ++ b) x = build (lastKey p a) b x
  | _, [], _, _, _ => rfl
  | p, (k, f) :: a, b, x, h => by
    simp only [keys_cons, List.mem_cons, not_or] at h
    simp only [List.cons_append, build, if_neg h.1]
    rw [build_right _ a b x h.2, lastKey_cons]

theorem build_tail (p q : Option Int) (i : Item) (t : List Item) (x : Int) (h : x ≠ i.1) :
    build p (i :: t) x = build q (i :: t) x := by
  obtain ⟨k, f⟩ := i
  simp only [build, if_neg h]

/-- Cut one item out of the links. -/
theorem detach (c : Cache) (a b : List Item) (k : Int) (f : Option Frame)
    (hh : c.hash = build none (a ++ (k, f) :: b)) (nd : (keys (a ++ (k, f) :: b)).Nodup) :
    ∃ h', ((setNext c (lastKey none a) (headKey b)) >>= fun c =>
        setPrev c (headKey b) (lastKey none a)) = .ok { c with hash := h' } ∧
      h' k = some ⟨f, lastKey none a, headKey b⟩ ∧ ∀ x, x ≠ k → h' x = build none (a ++ b) x := by
  have hk : k ∉ keys a := by
    simp only [keys_append, keys_cons, List.nodup_append] at nd
    intro h; exact nd.2.2 _ h _ (List.mem_cons_self ..) rfl
  have hkb : k ∉ keys b := by
    simp only [keys_append, keys_cons, List.nodup_append, List.nodup_cons] at nd
    exact nd.2.1.1
  rcases List.eq_nil_or_concat a with rfl | ⟨a', ⟨kp, fp⟩, ha⟩
  · cases b with
    | nil =>
      refine ⟨c.hash, rfl, ?_, ?_⟩
      · rw [hh]; exact build_at none [] [] k f hk
      · intro x hx; rw [hh]; simp [build, hx]
    | cons i b =>
      obtain ⟨kn, fn⟩ := i
      have hne : kn ≠ k := by intro e; apply hkb; simp [e]
      have hn : c.hash kn = some ⟨fn, some k, headKey b⟩ := by
        rw [hh]; simp [build, hne]
      refine ⟨fun x => if x = kn then some ⟨fn, none, headKey b⟩ else c.hash x, ?_, ?_, ?_⟩
      · simp [setNext, setPrev, node, hn, putNode]
      · simp only [if_neg (Ne.symm hne)]
        rw [hh]; exact build_at none [] _ k f hk
      · intro x hx
        by_cases e : x = kn
        · simp [e, build]
        · simp only [if_neg e, hh, List.nil_append, build, if_neg hx]
  · rw [List.concat_eq_append] at ha
    subst ha
    have hkp : kp ∉ keys a' := by
      simp only [keys_append, keys_cons, List.nodup_append, keys_nil, List.append_assoc] at nd
      intro h; exact nd.2.2 _ h kp (by simp) rfl
    have hpk : kp ≠ k := by intro e; apply hk; simp [e]
    have hp : c.hash kp = some ⟨fp, lastKey none a', some k⟩ := by
      rw [hh, List.append_assoc]; exact build_at none a' _ kp fp hkp
    cases b with
    | nil =>
      refine ⟨fun x => if x = kp then some ⟨fp, lastKey none a', none⟩ else c.hash x, ?_, ?_, ?_⟩
      · simp [setNext, setPrev, node, hp, putNode]
      · simp only [if_neg (Ne.symm hpk)]
        rw [hh]; exact build_at none _ _ k f hk
      · intro x hx
        by_cases e : x = kp
        · subst e
          simp only [if_true, List.append_nil]
          rw [build_at none a' [] _ fp hkp, headKey_nil]
        · simp only [if_neg e, hh, List.append_nil]
          by_cases m : x ∈ keys a'
          · rw [List.append_assoc]
            exact build_left _ _ _ _ _ m (by simp)
          · rw [build_none, build_none]
            · simpa [e] using m
            · simp [e, m, hx]
    | cons i b =>
      obtain ⟨kn, fn⟩ := i
      have hne : kn ≠ k := by intro e; apply hkb; simp [e]
      have hkn : kn ∉ keys (a' ++ [(kp, fp)]) := by
        simp only [keys_append, keys_cons, List.nodup_append, List.nodup_cons, keys_nil,
          List.append_assoc] at nd
        intro h
        simp only [keys_append, keys_cons, keys_nil, List.mem_append, List.mem_singleton] at h
        rcases h with h | h
        · exact nd.2.2 _ h kn (by simp) rfl
        · exact nd.2.1.2.2 kp (by simp) kn (by simp) h.symm
      have hpn : kn ≠ kp := by intro e; apply hkn; simp [e]
      have hn : c.hash kn = some ⟨fn, some k, headKey b⟩ := by
        rw [hh, build_right _ _ _ _ hkn]; simp [build, hne]
      refine ⟨fun x => if x = kn then some ⟨fn, some kp, headKey b⟩ else
        if x = kp then some ⟨fp, lastKey none a', some kn⟩ else c.hash x, ?_, ?_, ?_⟩
      · simp [setNext, setPrev, node, hn, hp, putNode, hpn]
      · simp only [if_neg (Ne.symm hpk), if_neg (Ne.symm hne)]
        rw [hh]; exact build_at none _ _ k f hk
      · intro x hx
        show (if x = kn then _ else _) = _
        by_cases e : x = kn
        · subst e
          rw [if_pos rfl, build_right _ _ _ _ hkn]
          simp [build]
        · rw [if_neg e]
          by_cases e2 : x = kp
          · subst e2
            rw [if_pos rfl, List.append_assoc, List.singleton_append, build_at _ _ _ _ _ hkp]
            simp
          · rw [if_neg e2, hh]
            by_cases m : x ∈ keys a'
            · rw [List.append_assoc, List.append_assoc]
              exact build_left _ _ _ _ _ m (by simp)
            · have m2 : x ∉ keys (a' ++ [(kp, fp)]) := by simpa [e2] using m
              rw [build_right _ _ _ _ m2, build_right _ _ _ _ m2]
              simp only [build, if_neg hx, if_neg e]

/-! ## The representation -/

/-- The items of a list of frames followed by remembered keys. -/
def items (fs : List (Int × Frame)) (hs : List Int) : List Item :=
  fs.map (fun p => (p.1, some p.2)) ++ hs.map (fun k => (k, none))

@[simp] theorem keys_items (fs hs) : keys (items fs hs) = fs.map (·.1) ++ hs := by
  simp [items, keys, Function.comp_def]

/-- Bytes of a list of frames. -/
def sumBytes (fs : List (Int × Frame)) : Nat := (fs.map (fun p => p.2.bytes)).sum

@[simp] theorem sumBytes_nil : sumBytes [] = 0 := rfl
@[simp] theorem sumBytes_cons (p fs) : sumBytes (p :: fs) = p.2.bytes + sumBytes fs := by
  simp [sumBytes]
@[simp] theorem sumBytes_append (a b) : sumBytes (a ++ b) = sumBytes a + sumBytes b := by
  simp [sumBytes]

structure Rep (c : Cache) (fs : List (Int × Frame)) (hs : List Int) : Prop where
  hash : c.hash = build none (items fs hs)
  nd : (fs.map (·.1) ++ hs).Nodup
  first : c.first = headKey (items fs hs)
  weak : c.weak = hs.head?
  last : c.last = lastKey none (items fs hs)
  size : c.currentSize = fs.length
  hist : c.historySize = hs.length
  bytes : c.currentBytes = sumBytes fs

/-- The settings and statistics are the same. -/
structure Same (c d : Cache) : Prop where
  maxSize : d.maxSize = c.maxSize
  maxHistory : d.maxHistory = c.maxHistory
  fixedSize : d.fixedSize = c.fixedSize
  hits : d.hits = c.hits
  nearMiss : d.nearMiss = c.nearMiss
  farMiss : d.farMiss = c.farMiss
  userSize : d.userSize = c.userSize
  lastActivity : d.lastActivity = c.lastActivity

theorem Same.refl (c : Cache) : Same c c := ⟨rfl, rfl, rfl, rfl, rfl, rfl, rfl, rfl⟩

theorem Same.trans {c d e : Cache} (h : Same c d) (g : Same d e) : Same c e :=
  ⟨g.1.trans h.1, g.2.trans h.2, g.3.trans h.3, g.4.trans h.4, g.5.trans h.5, g.6.trans h.6,
   g.7.trans h.7, g.8.trans h.8⟩

theorem rep_new : Rep Cache.new [] [] :=
  ⟨rfl, List.nodup_nil, rfl, rfl, rfl, rfl, rfl, rfl⟩

/-- The node of a cached frame. -/
theorem Rep.at {c : Cache} {a b : List (Int × Frame)} {hs k f} (r : Rep c (a ++ (k, f) :: b) hs) :
    c.hash k = some ⟨some f, lastKey none (items a []), headKey (items b hs)⟩ := by
  have hk : k ∉ keys (items a []) := by
    have := r.nd
    simp only [List.map_append, List.map_cons, List.append_assoc, List.cons_append,
      List.nodup_append] at this
    intro h
    exact this.2.2 k (by simpa using h) k (by simp) rfl
  have e : items (a ++ (k, f) :: b) hs = items a [] ++ (k, some f) :: items b hs := by
    simp [items]
  rw [r.hash, e]; exact build_at _ _ _ _ _ hk

/-- The node of a remembered key. -/
theorem Rep.atHist {c : Cache} {fs} {a b : List Int} {k} (r : Rep c fs (a ++ k :: b)) :
    c.hash k = some ⟨none, lastKey none (items fs a), b.head?⟩ := by
  have hk : k ∉ keys (items fs a) := by
    have := r.nd
    rw [← List.append_assoc, List.nodup_append] at this
    intro h
    exact this.2.2 k (by simpa using h) k (by simp) rfl
  have e : items fs (a ++ k :: b) = items fs a ++ (k, none) :: items [] b := by
    simp [items]
  rw [r.hash, e, build_at _ _ _ _ _ hk]
  cases b <;> simp [items]

theorem Rep.none {c : Cache} {fs hs} {k : Int} (r : Rep c fs hs) (h1 : k ∉ fs.map (·.1))
    (h2 : k ∉ hs) : c.hash k = none := by
  rw [r.hash]; apply build_none
  rw [keys_items, List.mem_append]
  exact fun h => h.elim h1 h2

theorem mem_split {fs : List (Int × Frame)} {k : Int} (h : k ∈ fs.map (·.1)) :
    ∃ a f b, fs = a ++ (k, f) :: b := by
  obtain ⟨⟨k', f⟩, hm, e⟩ := List.mem_map.1 h
  obtain ⟨a, b, rfl⟩ := List.append_of_mem hm
  simp only at e; subst e
  exact ⟨a, f, b, rfl⟩

end VS.Cache
