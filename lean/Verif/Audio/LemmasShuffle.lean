import Verif.Audio.Lemmas

/-!
# Helper lemmas for ShuffleChannels
-/

namespace VS.Audio

set_option maxRecDepth 10000

variable {α : Type}

/-! ### Counting channels -/

theorem countP_eq_range (a b : Nat) : (List.range b).countP (fun x => decide (x = a)) = if a < b then 1 else 0 := by
  induction b with
  | zero => simp
  | succ b ih =>
    rw [List.range_succ, List.countP_append, ih]
    by_cases e : b = a
    · subst e; simp
    · simp only [List.countP_cons, List.countP_nil]
      simp only [e, decide_false, Bool.false_eq_true, if_false, Nat.add_zero]
      by_cases h1 : a < b
      · rw [if_pos h1, if_pos (by omega)]
      · rw [if_neg h1, if_neg (by omega)]

theorem countP_mem_range (b : Nat) : ∀ l : List Nat, l.Nodup →
    (List.range b).countP (fun x => decide (x ∈ l)) = l.countP (fun x => decide (x < b)) := by
  intro l
  induction l with
  | nil => intro _; simp
  | cons a l ih =>
    intro hnd
    obtain ⟨h1, h2⟩ := List.nodup_cons.1 hnd
    rw [List.countP_cons, ← ih h2]
    have key : ∀ r : List Nat, r.countP (fun x => decide (x ∈ a :: l)) =
        r.countP (fun x => decide (x ∈ l)) + r.countP (fun x => decide (x = a)) := by
      intro r
      induction r with
      | nil => simp
      | cons y r ihr =>
        rw [List.countP_cons, List.countP_cons, List.countP_cons, ihr]
        by_cases e : y = a
        · subst e
          simp [h1]; omega
        · simp [e]; split <;> omega
    rw [key, countP_eq_range]
    simp

/-- In a strictly increasing list the entries below the `t`-th are the `t` before it. -/
theorem countP_sorted : ∀ {l : List Nat}, l.Pairwise (· < ·) → ∀ {t a : Nat}, l[t]? = some a →
    l.countP (fun x => decide (x < a)) = t := by
  intro l
  induction l with
  | nil => intro _ t a h; simp at h
  | cons x l ih =>
    intro hp t a h
    obtain ⟨h1, h2⟩ := List.pairwise_cons.1 hp
    cases t with
    | zero =>
      simp at h
      subst h
      rw [List.countP_cons, List.countP_eq_zero.2]
      · simp
      · intro y hy
        have := h1 y hy
        simp; omega
    | succ t =>
      simp at h
      rw [List.countP_cons, ih h2 h, if_pos]
      have := h1 a (List.mem_of_getElem? h)
      simpa using this

theorem testBit_foldl (ds : List Nat) : ∀ (l b : Nat),
    (ds.foldl (fun l d => l ||| (1 <<< d)) l).testBit b = (l.testBit b || decide (b ∈ ds)) := by
  induction ds with
  | nil => intro l b; simp
  | cons d ds ih =>
    intro l b
    rw [List.foldl_cons, ih, Nat.testBit_or, Nat.one_shiftLeft, Nat.testBit_two_pow]
    by_cases e : d = b
    · subst e; simp
    · have : b ≠ d := fun h => e h.symm
      simp [e, this]

theorem shufLayout_testBit (nodes : List ShufNode) (b : Nat) :
    (shufLayout nodes).testBit b = decide (b ∈ nodes.map (·.dstIdx.toNat)) := by
  unfold shufLayout
  have : nodes.foldl (fun l s => l ||| (1 <<< s.dstIdx.toNat)) 0 =
      (nodes.map (·.dstIdx.toNat)).foldl (fun l d => l ||| (1 <<< d)) 0 := by rw [List.foldl_map]
  rw [this, testBit_foldl]
  simp

/-! ### Arguments -/

theorem toIntS_small {x : Int} (h1 : -64 ≤ x) (h2 : x < 64) : int64ToIntS x = x := by
  unfold int64ToIntS
  simp only [INT_MIN, INT_MAX]
  repeat' split
  all_goals omega

theorem shufArgs_ok (k : Nat) : ∀ (ins outs : List Int) (i : Nat), ins.length = outs.length →
    (∀ x ∈ ins, -64 ≤ x ∧ x < 64) → (∀ x ∈ outs, 0 ≤ x ∧ x < 64) →
    ∃ nodes, shufArgs k i ins outs = some nodes ∧ nodes.length = ins.length ∧ nodes.map (·.dstIdx) = outs ∧
      ∀ (j : Nat) (a b : Int), ins[j]? = some a → outs[j]? = some b → nodes[j]? = some (ShufNode.mk (min (k - 1) (i + j)) a b (-1)) := by
  intro ins
  induction ins with
  | nil =>
    intro outs i hl _ _
    cases outs with
    | nil => exact ⟨[], rfl, rfl, rfl, by simp⟩
    | cons => simp at hl
  | cons x ins ih =>
    intro outs i hl h1 h2
    cases outs with
    | nil => simp at hl
    | cons y outs =>
      obtain ⟨nodes, e1, e2, e3, e4⟩ := ih outs (i + 1) (by simpa using hl) (fun z hz => h1 z (by simp [hz]))
        (fun z hz => h2 z (by simp [hz]))
      have hx := h1 x (by simp)
      have hy := h2 y (by simp)
      refine ⟨⟨min (k - 1) i, x, y, -1⟩ :: nodes, ?_, by simp [e2], by simp [e3], ?_⟩
      · unfold shufArgs
        simp only [toIntS_small hx.1 hx.2, toIntS_small (x := y) (by omega) hy.2]
        rw [if_neg (by omega), e1]
        rfl
      · intro j a b ha hb
        cases j with
        | zero => simp at ha hb; subst ha hb; simp
        | succ j =>
          simp at ha hb
          have := e4 j a b ha hb
          simp only [List.getElem?_cons_succ, this]
          congr 2; omega

theorem shufArgs_reject (k : Nat) : ∀ (ins outs : List Int) (i : Nat), ins.length = outs.length →
    ((∃ x ∈ ins, x < -64 ∨ 64 ≤ x) ∨ (∃ x ∈ outs, x < 0 ∨ 64 ≤ x)) → shufArgs k i ins outs = none := by
  intro ins
  induction ins with
  | nil =>
    intro outs i hl h
    cases outs with
    | nil => simp at h
    | cons => simp at hl
  | cons x ins ih =>
    intro outs i hl h
    cases outs with
    | nil => simp at hl
    | cons y outs =>
      unfold shufArgs
      simp only
      split
      · rfl
      · rename_i hn
        rw [ih outs (i + 1) (by simpa using hl)]
        · rfl
        · have big : ∀ z : Int, int64ToIntS z = z ∨ (z < -2147483648 ∧ int64ToIntS z = -2147483648) ∨
              (2147483647 < z ∧ int64ToIntS z = 2147483647) := by
            intro z
            unfold int64ToIntS
            simp only [INT_MIN, INT_MAX]
            repeat' split
            all_goals omega
          have hx := big x
          have hy := big y
          simp only [List.mem_cons, exists_eq_or_imp] at h
          rcases h with (h | h) | (h | h)
          · exfalso; omega
          · exact Or.inl h
          · exfalso; omega
          · exact Or.inr h

/-! ### Resolving -/

theorem shufResolve_ok (first : AudioInfo) (clips : List (AClip α)) (idxOf : ShufNode → Nat) :
    ∀ (nodes : List ShufNode) (acc : Int),
      (∀ s ∈ nodes, ∃ c, clips[s.node]? = some c ∧ c.ai.sampleRate = first.sampleRate ∧
        c.ai.format.bitsPerSample = first.format.bitsPerSample ∧ c.ai.format.sampleType = first.format.sampleType ∧
        resolveChannel c.ai.format s.idx = some (idxOf s : Int)) →
      ∃ r m, shufResolve first clips nodes acc = .ok (r, m) ∧ r.length = nodes.length ∧
        (∀ (t : Nat) (s : ShufNode), nodes[t]? = some s → ∃ c, clips[s.node]? = some c ∧
          r[t]? = some (ShufNode.mk s.node (idxOf s) s.dstIdx c.ai.numFrames)) ∧
        acc ≤ m ∧ (∀ s ∈ nodes, ∀ c, clips[s.node]? = some c → c.ai.numSamples ≤ m) ∧
        (m = acc ∨ ∃ s ∈ nodes, ∃ c, clips[s.node]? = some c ∧ m = c.ai.numSamples) := by
  intro nodes
  induction nodes with
  | nil => intro acc _; exact ⟨[], acc, rfl, rfl, by simp, by omega, by simp, Or.inl rfl⟩
  | cons s nodes ih =>
    intro acc h
    obtain ⟨c, hc, h1, h2, h3, h4⟩ := h s (by simp)
    obtain ⟨r, m, e1, e2, e3, e4, e5, e6⟩ := ih (max acc c.ai.numSamples) (fun x hx => h x (by simp [hx]))
    refine ⟨⟨s.node, idxOf s, s.dstIdx, c.ai.numFrames⟩ :: r, m, ?_, by simp [e2], ?_, by omega, ?_, ?_⟩
    · unfold shufResolve
      simp only [hc]
      rw [if_neg (by simp [h1, h2, h3]), h4]
      simp only [e1, Res.bind]
    · intro t x hx
      cases t with
      | zero => simp at hx; subst hx; exact ⟨c, hc, by simp⟩
      | succ t => simp at hx ⊢; exact e3 t x hx
    · intro x hx c' hc'
      rcases List.mem_cons.1 hx with rfl | hx
      · rw [hc] at hc'; cases hc'; omega
      · exact e5 x hx c' hc'
    · rcases e6 with e6 | ⟨x, hx, c', hc', e⟩
      · by_cases hle : c.ai.numSamples ≤ acc
        · left; omega
        · right; exact ⟨s, by simp, c, hc, by omega⟩
      · right; exact ⟨x, by simp [hx], c', hc', e⟩

theorem shufResolve_reject_rate (first : AudioInfo) (clips : List (AClip α)) :
    ∀ (nodes : List ShufNode) (acc : Int),
      (∀ s ∈ nodes, s.node < clips.length) →
      (∃ s ∈ nodes, ∃ c, clips[s.node]? = some c ∧ (¬ (c.ai.sampleRate = first.sampleRate ∧
        c.ai.format.bitsPerSample = first.format.bitsPerSample ∧ c.ai.format.sampleType = first.format.sampleType) ∨
        resolveChannel c.ai.format s.idx = none)) →
      ∃ msg, shufResolve first clips nodes acc = .err msg := by
  intro nodes
  induction nodes with
  | nil => intro acc _ h; simp at h
  | cons s nodes ih =>
    intro acc hlt h
    obtain ⟨c, hc⟩ : ∃ c, clips[s.node]? = some c := ⟨clips[s.node]'(hlt s (by simp)), by simp [hlt s (by simp)]⟩
    unfold shufResolve
    simp only [hc]
    split
    · exact ⟨_, rfl⟩
    · rename_i hn
      split
      · exact ⟨_, rfl⟩
      · rename_i idx hidx
        obtain ⟨x, hx, c', hc', hbad⟩ := h
        obtain ⟨msg, hm⟩ := ih (max acc c.ai.numSamples) (fun z hz => hlt z (by simp [hz])) (by
          rcases List.mem_cons.1 hx with rfl | hx
          · exfalso
            rw [hc] at hc'; cases hc'
            rcases hbad with hbad | hbad
            · exact hbad ⟨Classical.byContradiction fun e => hn (Or.inl e),
                Classical.byContradiction fun e => hn (Or.inr (Or.inl e)),
                Classical.byContradiction fun e => hn (Or.inr (Or.inr e))⟩
            · rw [hbad] at hidx; cases hidx
          · exact ⟨x, hx, c', hc', hbad⟩)
        exact ⟨msg, by rw [hm]; rfl⟩

/-! ### Copying -/

theorem copyOne_ok {dst src : Bufs α} {dc sc : Nat} {doff soff n : Int} (h1 : 0 ≤ n) (h2 : 0 ≤ doff) (h3 : 0 ≤ soff)
    (h4 : doff + n ≤ 3072) (h5 : soff + n ≤ 3072) :
    ∃ b, copyOne dst dc doff src sc soff n = .ok b ∧
      ∀ c i, b c i = if c = dc ∧ doff.toNat ≤ i ∧ i < doff.toNat + n.toNat
        then src sc (i - doff.toNat + soff.toNat) else dst c i := by
  unfold copyOne SAMPLES
  rw [if_neg (by omega)]
  exact ⟨_, rfl, fun _ _ => rfl⟩

/-- One channel: copy what there is and fill up with zeros. -/
theorem chan_copy [Zero α] {dst src : Bufs α} {dc sc L D : Nat} (hD : D ≤ 3072) (hL : L ≤ D) (s : Nat → α)
    (hsrc : ∀ i, i < L → src sc i = some (s i)) :
    ∃ b b' : Bufs α, (if (L : Int) > 0 then copyOne dst dc 0 src sc 0 (L : Int) else .ok dst) = .ok b ∧
      (if (D : Int) - L > 0 then copyOne b dc L (fun _ _ => some 0) 0 0 ((D : Int) - L) else .ok b) = .ok b' ∧
      (∀ i, i < D → b' dc i = some (if i < L then s i else 0)) ∧ ∀ c i, c ≠ dc → b' c i = dst c i := by
  have h1 : ∃ b : Bufs α, (if (L : Int) > 0 then copyOne dst dc 0 src sc 0 (L : Int) else .ok dst) = .ok b ∧
      (∀ i, i < L → b dc i = some (s i)) ∧ ∀ c i, c ≠ dc → b c i = dst c i := by
    by_cases hp : (L : Int) > 0
    · rw [if_pos hp]
      obtain ⟨b, hb1, hb2⟩ := copyOne_ok (dst := dst) (src := src) (dc := dc) (sc := sc) (doff := 0) (soff := 0)
        (n := (L : Int)) (by omega) (by omega) (by omega) (by omega) (by omega)
      refine ⟨b, hb1, ?_, ?_⟩
      · intro i hi
        rw [hb2, if_pos ⟨rfl, by omega, by omega⟩]
        simp [hsrc i hi]
      · intro c i hc
        rw [hb2, if_neg (by simp [hc])]
    · rw [if_neg hp]
      exact ⟨dst, rfl, fun i hi => by omega, fun _ _ _ => rfl⟩
  obtain ⟨b, hb1, hb2, hb3⟩ := h1
  by_cases hz : (D : Int) - L > 0
  · obtain ⟨b', hb1', hb2'⟩ := copyOne_ok (dst := b) (src := fun _ _ => some (0 : α)) (dc := dc) (sc := 0)
      (doff := (L : Int)) (soff := 0) (n := (D : Int) - L) (by omega) (by omega) (by omega) (by omega) (by omega)
    refine ⟨b, b', hb1, by rw [if_pos hz]; exact hb1', ?_, ?_⟩
    · intro i hi
      rw [hb2']
      by_cases hi2 : i < L
      · rw [if_neg (by omega), if_pos hi2, hb2 i hi2]
      · rw [if_pos ⟨rfl, by omega, by omega⟩, if_neg hi2]
    · intro c i hc
      rw [hb2', if_neg (by simp [hc]), hb3 c i hc]
  · refine ⟨b, b, hb1, by rw [if_neg hz], ?_, hb3⟩
    intro i hi
    rw [if_pos (by omega), hb2 i (by omega)]

/-- The output frame with the first `m` channels done. -/
def ChDone (fmt : AudioFormat) (D : Nat) (tgt : Nat → Nat → α) (m : Nat) : Option (AFrame α) → Prop
  | none => m = 0
  | some d => d.format = fmt ∧ d.len = D ∧ ∀ c, c < m → ∀ i, i < D → d.ch c i = some (tgt c i)

theorem shufCopy_ok [Zero α] (fmt : AudioFormat) (n : Nat) (D : Nat) (hD : D ≤ 3072) (hD0 : 0 < D)
    (fetch : Nat → Int → Option (AFrame α)) (tgt : Nat → Nat → α) :
    ∀ (nodes : List ShufNode) (m : Nat) (dst : Option (AFrame α)), ChDone fmt D tgt m dst →
      (∀ (t : Nat) (s : ShufNode), nodes[t]? = some s → ∃ g, fetch s.node n = some g ∧ ∃ (L : Nat) (x : Nat → α),
        (if (n : Int) < s.numFrames then g.len else 0) = (L : Int) ∧
        (∀ i, i < min D L → g.ch s.idx.toNat i = some (x i)) ∧
        ∀ i, i < D → tgt (m + t) i = if i < min D L then x i else 0) →
      ∃ r, shufCopy fmt n D fetch m nodes dst = .ok r ∧ ChDone fmt D tgt (m + nodes.length) r := by
  intro nodes
  induction nodes with
  | nil => intro m dst h _; exact ⟨dst, rfl, h⟩
  | cons s nodes ih =>
    intro m dst h hs
    obtain ⟨g, hg, L, x, hL, hx, ht⟩ := hs 0 s (by simp)
    have key : ∃ d, ensureFrame dst fmt (D : Int) = .ok d ∧ d.format = fmt ∧ d.len = D ∧
        ∀ c, c < m → ∀ i, i < D → d.ch c i = some (tgt c i) := by
      cases dst with
      | some d => exact ⟨d, rfl, h.1, h.2.1, h.2.2⟩
      | none =>
        have h0 : m = 0 := h
        refine ⟨⟨fmt, D, fun _ _ => none⟩, newAudioFrame_ok (by omega), rfl, rfl, ?_⟩
        intro c hc; omega
    obtain ⟨d, d1, d2, d3, d4⟩ := key
    obtain ⟨b, b', c1, c2, c3, c4⟩ := chan_copy (dst := d.ch) (src := g.ch) (dc := m) (sc := s.idx.toNat) (L := min D L)
      (D := D) hD (by omega) x hx
    have hdone : ChDone fmt D tgt (m + 1) (some { d with ch := b' }) := by
      refine ⟨d2, d3, ?_⟩
      intro c hc i hi
      simp only
      by_cases e : c = m
      · subst e
        rw [c3 i hi, ← ht i hi]
        simp
      · rw [c4 c i e]
        exact d4 c (by omega) i hi
    obtain ⟨r, r1, r2⟩ := ih (m + 1) _ hdone (by
      intro t s' hs'
      obtain ⟨g', q1, L', x', q2, q3, q4⟩ := hs (t + 1) s' (by simpa using hs')
      refine ⟨g', q1, L', x', q2, q3, ?_⟩
      intro i hi
      rw [show m + 1 + t = m + (t + 1) by omega]
      exact q4 i hi)
    refine ⟨r, ?_, ?_⟩
    · unfold shufCopy
      simp only [hg, hL, d1, Res.bind]
      rw [show min (D : Int) (L : Int) = ((min D L : Nat) : Int) by omega, c1]
      simp only
      rw [c2]
      exact r1
    · rw [List.length_cons, show m + (nodes.length + 1) = m + 1 + nodes.length by omega]
      exact r2

end VS.Audio
