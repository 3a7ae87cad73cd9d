import Verif.Blur.Model
import Verif.Point.Lemmas

/-! # Rows -/

namespace VS.Blur
open VS VS.Format VS.Map VS.Map.Spec VS.Pix VS.Pix.Spec VS.Point VS.Point.Spec

/-- Sample `x` of the row at `off`. -/
def cell (n off : Nat) (b : Buf) (x : Nat) : Nat := leVal n (fun k => b.byte (off + x * n + k))

/-- Sample `x` of the row has the bytes of `v`. -/
def Holds (n off : Nat) (b : Buf) (x v : Nat) : Prop := ∀ k, k < n → b.byte (off + x * n + k) = leByte v k

theorem Holds.cell {n off : Nat} {b : Buf} {x v : Nat} (h : Holds n off b x v) : cell n off b x = v % 256 ^ n := by
  unfold VS.Blur.cell
  rw [← leVal_bytes]
  exact leVal_congr h

theorem cell_end {n w x : Nat} (h : x < w) : x * n + n ≤ w * n := by
  have := Nat.mul_le_mul_right n (show x + 1 ≤ w by omega)
  rw [Nat.add_mul, Nat.one_mul] at this
  exact this

theorem cell_apart {n x x' : Nat} (h : x ≠ x') : x * n + n ≤ x' * n ∨ x' * n + n ≤ x * n := by
  rcases Nat.lt_or_gt_of_ne h with h | h
  · exact Or.inl (cell_end h)
  · exact Or.inr (cell_end h)

theorem rowRd_ok {n off w : Nat} {b : Buf} (hb : off + w * n ≤ b.size) {x : Nat} (hx : x < w) :
    rowRd n off b x = .ok (cell n off b x) := by
  have := cell_end (n := n) hx
  exact rd_ok (by omega)

/-- Nothing but the row has changed. -/
def Outside (n off w : Nat) (b b' : Buf) : Prop :=
  b'.size = b.size ∧ ∀ i, ¬ (off ≤ i ∧ i < off + w * n) → b'.byte i = b.byte i

theorem Outside.refl (n off w : Nat) (b : Buf) : Outside n off w b b := ⟨rfl, fun _ _ => rfl⟩

theorem Outside.trans {n off w : Nat} {a b c : Buf} (h1 : Outside n off w a b) (h2 : Outside n off w b c) : Outside n off w a c :=
  ⟨h2.1.trans h1.1, fun i hi => (h2.2 i hi).trans (h1.2 i hi)⟩

theorem rowWr_ok {n off w : Nat} {b : Buf} (hb : off + w * n ≤ b.size) {x : Nat} (hx : x < w) (v : Nat) :
    ∃ b', rowWr n off b x v = .ok b' ∧ Outside n off w b b' ∧ Holds n off b' x v ∧
      ∀ x' k, x' ≠ x → k < n → b'.byte (off + x' * n + k) = b.byte (off + x' * n + k) := by
  have he := cell_end (n := n) hx
  obtain ⟨b', h0, h1, h2, h3⟩ := wr_ok (b := b) (n := n) (off := off + x * n) v (by omega)
  refine ⟨b', h0, ⟨h1, fun i hi => h3 i (by omega)⟩, h2, ?_⟩
  intro x' k hne hk
  refine h3 _ ?_
  have := cell_apart (n := n) hne
  omega

/-! ## What a pass computes -/

variable (Q : Acc)

/-- The sum before sample `x` is computed; it was `a` at the start of the row `s`. -/
def preOf (a : Q.A) (s : Nat → Nat) (w r : Nat) : Nat → Q.A
  | 0 => a
  | x + 1 => Q.sub (Q.add (preOf a s w r x) (Q.load (s (min (x + r) (w - 1))))) (Q.load (s (x - r)))

/-- Sample `x`. -/
def outOf (a : Q.A) (s : Nat → Nat) (w r round x : Nat) : Nat :=
  Q.out round (Q.add (preOf Q a s w r x) (Q.load (s (min (x + r) (w - 1)))))

/-- The sum before the first sample. -/
def startOf (a : Q.A) (s : Nat → Nat) (w : Nat) : Nat → Q.A
  | 0 => a
  | k + 1 => Q.add (startOf a s w k) (Q.load (s (min k (w - 1))))

theorem startSum_ok {R : Nat → Res Nat} {s : Nat → Nat} {w r : Nat} (hw : 0 < w) (hR : ∀ x, x < w → R x = .ok (s x)) {a : Q.A}
    (ha : Q.scale r (s 0) = .ok a) : startSum Q R w r = .ok (startOf Q a s w r) := by
  unfold startSum
  rw [hR 0 hw, Res.bind_ok, ha, Res.bind_ok]
  obtain ⟨a', e, h⟩ := forN_spec (fun x (a : Q.A) => do
    let v ← R (min x (w - 1))
    .ok (Q.add a (Q.load v))) (fun k a' => a' = startOf Q a s w k) r a rfl (by
      rintro k b hk rfl
      refine ⟨_, ?_, rfl⟩
      rw [hR _ (by omega), Res.bind_ok]
      rfl)
  rw [e, h]

/-- The first `x` samples are done. -/
structure Done (a : Q.A) (s : Nat → Nat) (n off w r round : Nat) (dst : Buf) (x : Nat) (acc : Q.A) (b : Buf) : Prop where
  acc : acc = preOf Q a s w r x
  out : Outside n off w dst b
  done : ∀ x', x' < x → x' < w → Holds n off b x' (outOf Q a s w r round x')
  todo : ∀ x', x ≤ x' → cell n off b x' = cell n off dst x'

theorem Done.start (a : Q.A) (s : Nat → Nat) (n off w r round : Nat) (dst : Buf) : Done Q a s n off w r round dst 0 a dst :=
  ⟨rfl, Outside.refl _ _ _ _, fun _ h => absurd h (Nat.not_lt_zero _), fun _ _ => rfl⟩

/-- One more sample. -/
theorem Done.step {a : Q.A} {s : Nat → Nat} {n off w r round : Nat} {dst : Buf} (hd : off + w * n ≤ dst.size) {x : Nat} (hx : x < w)
    {acc : Q.A} {b : Buf} (h : Done Q a s n off w r round dst x acc b) :
    ∃ b', rowWr n off b x (Q.out round (Q.add acc (Q.load (s (min (x + r) (w - 1)))))) = .ok b' ∧
      Done Q a s n off w r round dst (x + 1)
        (Q.sub (Q.add acc (Q.load (s (min (x + r) (w - 1))))) (Q.load (s (x - r)))) b' := by
  obtain ⟨b', e, h1, h2, h3⟩ := rowWr_ok (n := n) (off := off) (w := w) (b := b) (by rw [h.out.1]; exact hd) hx
    (Q.out round (Q.add acc (Q.load (s (min (x + r) (w - 1))))))
  refine ⟨b', e, ?_, h.out.trans h1, ?_, ?_⟩
  · rw [h.acc]; rfl
  · intro x' hx' hw
    by_cases c : x' = x
    · subst c
      rw [h.acc] at h2
      exact h2
    · intro k hk
      rw [h3 _ k c hk]
      exact h.done x' (by omega) hw k hk
  · intro x' hx'
    rw [← h.todo x' (by omega)]
    exact leVal_congr (fun k hk => h3 _ k (by omega) hk)

theorem turn_ok {R : Nat → Res Nat} {a : Q.A} {s : Nat → Nat} {n off w r round : Nat} {dst : Buf}
    (hR : ∀ x, x < w → R x = .ok (s x)) (hd : off + w * n ≤ dst.size) {x hi lo : Nat} (hx : x < w) (hhi : hi = min (x + r) (w - 1))
    (hlo : lo = x - r) {q : Q.A × Buf} (h : Done Q a s n off w r round dst x q.1 q.2) :
    ∃ q', turn Q R n off round x hi lo q = .ok q' ∧ Done Q a s n off w r round dst (x + 1) q'.1 q'.2 := by
  subst hhi hlo
  obtain ⟨b', e, h'⟩ := h.step Q hd hx
  refine ⟨(_, b'), ?_, h'⟩
  unfold turn
  rw [hR _ (by omega), Res.bind_ok]
  dsimp only
  rw [e, Res.bind_ok, hR _ (by omega), Res.bind_ok]

theorem i32_nat {x : Nat} (h : x < 2 ^ 31) : i32 (x : Int) = .ok (x : Int) := by
  unfold i32
  rw [if_pos]
  unfold InI32
  have : (INT_MIN : Int) = -2147483648 ∧ (INT_MAX : Int) = 2147483647 := ⟨by decide, by decide⟩
  omega

/-- A pass from one row to another one. -/
theorem blurH_ok {R : Nat → Res Nat} {s : Nat → Nat} {n off w r round : Nat} {dst : Buf} (hw : 0 < w) (hr : w + r ≤ 2 ^ 31)
    (hR : ∀ x, x < w → R x = .ok (s x)) (hd : off + w * n ≤ dst.size) {a : Q.A} (ha : Q.scale r (s 0) = .ok a) :
    ∃ b, blurH Q R n off w r round dst = .ok b ∧ Outside n off w dst b ∧
      ∀ x, x < w → Holds n off b x (outOf Q (startOf Q a s w r) s w r round x) := by
  unfold blurH
  rw [startSum_ok Q hw hR ha, Res.bind_ok]
  generalize startOf Q a s w r = a'
  obtain ⟨q1, e1, h1⟩ := forN_spec (fun x => turn Q R n off round x (min (x + r) (w - 1)) (x - r))
    (fun x q => Done Q a' s n off w r round dst x q.1 q.2) (min r w) (a', dst) (Done.start Q ..)
    (fun k q hk h => turn_ok Q hR hd (by omega) rfl rfl h)
  rw [e1, Res.bind_ok]
  split
  · rename_i hwr
    rw [show min r w = r by omega] at h1
    obtain ⟨q2, e2, h2⟩ := forFrom_spec (fun x => turn Q R n off round x (x + r) (x - r)) 1
      (fun k q => Done Q a' s n off w r round dst (r + k) q.1 q.2) r (w - r - r) q1 h1
      (fun k q hk h => by
        rw [Nat.mul_one]
        exact turn_ok Q hR hd (by omega) (by omega) rfl h)
    rw [e2, Res.bind_ok]
    rw [show r + (w - r - r) = max (w - r) r by omega] at h2
    generalize hm : max (w - r) r = m at *
    obtain ⟨q3, e3, h3⟩ := forFrom_spec (fun x q => do
        let hi ← i32 (x + r : Nat)
        turn Q R n off round x (min hi.toNat (w - 1)) (x - r) q) 1
      (fun k q => Done Q a' s n off w r round dst (m + k) q.1 q.2) m (w - m) q2 h2
      (fun k q hk h => by
        rw [Nat.mul_one, i32_nat (by omega), Res.bind_ok, Int.toNat_natCast]
        exact turn_ok Q hR hd (by omega) rfl rfl h)
    rw [e3, Res.bind_ok]
    exact ⟨_, rfl, h3.out, fun x hx => h3.done x (by omega) hx⟩
  · rename_i hwr
    rw [show min r w = w by omega] at h1
    exact ⟨_, rfl, h1.out, fun x hx => h1.done x hx hx⟩

/-! ## A pass in place -/

/-- The ring keeps the last samples that were overwritten. -/
structure DoneIn (a : Q.A) (s : Nat → Nat) (n off w r round : Nat) (dst : Buf) (x : Nat) (q : Ring Q) : Prop where
  base : Done Q a s n off w r round dst x q.acc q.row
  len : q.ring.length = min (r + 1) w
  ring : ∀ j, j < x → x ≤ j + min (r + 1) w → q.ring[j % min (r + 1) w]? = some (some (s j))
  wr : q.wr = x % min (r + 1) w

theorem succ_mod {x R : Nat} (h : 0 < R) : (if x % R + 1 = R then 0 else x % R + 1) = (x + 1) % R := by
  have h1 := Nat.mod_lt x h
  split
  · rename_i e
    rw [← Nat.mod_add_mod, e, Nat.mod_self]
  · rw [← Nat.mod_add_mod, Nat.mod_eq_of_lt (a := x % R + 1) (by omega)]

theorem mod_inj {i j R : Nat} (h1 : i < j) (h2 : j < i + R) : i % R ≠ j % R := by
  intro e
  have h3 := Nat.div_add_mod i R
  have h4 := Nat.div_add_mod j R
  rw [e] at h3
  have h5 : R * (j / R) - R * (i / R) = j - i := by omega
  rw [← Nat.mul_sub] at h5
  rcases Nat.eq_zero_or_pos (j / R - i / R) with hz | hz
  · rw [hz] at h5; omega
  · have := Nat.mul_le_mul_left R (show 1 ≤ j / R - i / R from hz)
    omega

theorem turnIn_ok {a : Q.A} {s : Nat → Nat} {n off w r round : Nat} {dst : Buf} (hs : ∀ x, x < w → cell n off dst x = s x)
    (hd : off + w * n ≤ dst.size) {x hi : Nat} {first : Option Nat} (hx : x < w) (hhi : hi = min (x + r) (w - 1))
    (hf : (first = some (s (x - r))) ∨ (first = none ∧ r ≤ x)) {q : Ring Q} (h : DoneIn Q a s n off w r round dst x q) :
    ∃ q', turnIn Q n off round (min (r + 1) w) first x hi q = .ok q' ∧ DoneIn Q a s n off w r round dst (x + 1) q' := by
  subst hhi
  obtain ⟨b', e, h'⟩ := h.base.step Q hd hx
  have hR : 0 < min (r + 1) w := by omega
  have hml := Nat.mod_lt x hR
  have hsz : off + w * n ≤ q.row.size := by rw [h.base.out.1]; exact hd
  have hlast : ∀ j, j < x + 1 → x + 1 ≤ j + min (r + 1) w →
      (q.ring.set q.wr (some (s x)))[j % min (r + 1) w]? = some (some (s j)) := by
    intro j hj hj'
    rw [h.wr]
    by_cases c : j = x
    · subst c
      rw [List.getElem?_set_self (by rw [h.len]; exact hml)]
    · rw [List.getElem?_set_ne (Ne.symm (mod_inj (by omega) (by omega)))]
      exact h.ring j (by omega) (by omega)
  refine ⟨⟨Q.sub (Q.add q.acc (Q.load (s (min (x + r) (w - 1))))) (Q.load (s (x - r))), b', q.ring.set q.wr (some (s x)),
    (x + 1) % min (r + 1) w⟩, ?_, h', ?_, hlast, rfl⟩
  · unfold turnIn
    rw [rowRd_ok hsz hx, Res.bind_ok]
    unfold Ring.push
    rw [if_pos (by rw [h.wr, h.len]; exact hml), Res.bind_ok]
    dsimp only
    rw [rowRd_ok hsz (show min (x + r) (w - 1) < w by omega), Res.bind_ok, h.base.todo _ (Nat.le_refl x), hs _ hx,
      h.base.todo (min (x + r) (w - 1)) (by omega), hs _ (by omega), e, Res.bind_ok, h.wr, succ_mod hR]
    rcases hf with rfl | ⟨rfl, hr⟩
    · rfl
    · dsimp only
      unfold Ring.oldest
      dsimp only
      have := hlast (x - r) (by omega) (by omega)
      have em : (x - r) % min (r + 1) w = (x + 1) % min (r + 1) w := by
        rw [show x + 1 = x - r + min (r + 1) w by omega, Nat.add_mod_right]
      rw [em, h.wr] at this
      rw [this]
      rfl
  · rw [List.length_set]
    exact h.len

/-- A pass in place. -/
theorem blurInplace_ok {s : Nat → Nat} {n off w r round : Nat} {dst : Buf} (hw : 0 < w) (hr : w + r ≤ 2 ^ 31)
    (hs : ∀ x, x < w → cell n off dst x = s x) (hd : off + w * n ≤ dst.size) {a : Q.A} (ha : Q.scale r (s 0) = .ok a) :
    ∃ b, blurInplace Q n off w r round (min (r + 1) w) dst = .ok b ∧ Outside n off w dst b ∧
      ∀ x, x < w → Holds n off b x (outOf Q (startOf Q a s w r) s w r round x) := by
  unfold blurInplace
  dsimp only
  have hR : ∀ x, x < w → rowRd n off dst x = .ok (s x) := fun x hx => by rw [rowRd_ok hd hx, hs x hx]
  rw [hR 0 hw, Res.bind_ok, startSum_ok Q hw hR ha, Res.bind_ok]
  generalize startOf Q a s w r = a'
  obtain ⟨q1, e1, h1⟩ := forN_spec (fun x => turnIn Q n off round (min (r + 1) w) (some (s 0)) x (min (x + r) (w - 1)))
    (fun x q => DoneIn Q a' s n off w r round dst x q) (min r w) ⟨a', dst, List.replicate (min (r + 1) w) none, 0⟩
    ⟨Done.start Q .., by simp, fun _ h => absurd h (Nat.not_lt_zero _), (Nat.zero_mod _).symm⟩
    (fun k q hk h => turnIn_ok Q hs hd (by omega) rfl (Or.inl (by rw [show k - r = 0 by omega])) h)
  rw [e1, Res.bind_ok]
  split
  · rename_i hwr
    rw [show min r w = r by omega] at h1
    obtain ⟨q2, e2, h2⟩ := forFrom_spec (fun x => turnIn Q n off round (min (r + 1) w) none x (x + r)) 1
      (fun k q => DoneIn Q a' s n off w r round dst (r + k) q) r (w - r - r) q1 h1
      (fun k q hk h => by
        rw [Nat.mul_one]
        exact turnIn_ok Q hs hd (by omega) (by omega) (Or.inr ⟨rfl, by omega⟩) h)
    rw [e2, Res.bind_ok]
    rw [show r + (w - r - r) = max (w - r) r by omega] at h2
    generalize hm : max (w - r) r = m at *
    obtain ⟨q3, e3, h3⟩ := forFrom_spec (fun x q => do
        let hi ← i32 (x + r : Nat)
        turnIn Q n off round (min (r + 1) w) none x (min hi.toNat (w - 1)) q) 1
      (fun k q => DoneIn Q a' s n off w r round dst (m + k) q) m (w - m) q2 h2
      (fun k q hk h => by
        rw [Nat.mul_one, i32_nat (by omega), Res.bind_ok, Int.toNat_natCast]
        exact turnIn_ok Q hs hd (by omega) rfl (Or.inr ⟨rfl, by omega⟩) h)
    rw [e3, Res.bind_ok]
    exact ⟨_, rfl, h3.base.out, fun x hx => h3.base.done x (by omega) hx⟩
  · rename_i hwr
    rw [show min r w = w by omega] at h1
    exact ⟨_, rfl, h1.base.out, fun x hx => h1.base.done x hx hx⟩

/-! ## Radius 1 -/

/-- A pass with radius 1: `R` reads a row, the old samples if it is the same as the one that is written. -/
theorem blurR1_ok {R : Buf → Nat → Res Nat} {s : Nat → Nat} {n off w round : Nat} {dst : Buf} (hw : 3 ≤ w)
    (hR : ∀ b m, Outside n off w dst b → (∀ x, m ≤ x → cell n off b x = cell n off dst x) → ∀ x, m ≤ x → x < w → R b x = .ok (s x))
    (hd : off + w * n ≤ dst.size) {a : Q.A} (ha : Q.scale 2 (s 0) = .ok a) :
    ∃ b, blurR1 Q R n off w round dst = .ok b ∧ Outside n off w dst b ∧
      ∀ x, x < w → Holds n off b x (outOf Q a s w 1 round x) := by
  have rdD : ∀ {x acc b}, Done Q a s n off w 1 round dst x acc b → ∀ x', x ≤ x' → x' < w → R b x' = .ok (s x') :=
    fun h x' h1 h2 => hR _ _ h.out h.todo x' h1 h2
  have wrD : ∀ {x acc b v u}, x < w → v = s (min (x + 1) (w - 1)) → u = s (x - 1) → Done Q a s n off w 1 round dst x acc b →
      ∃ b', rowWr n off b x (Q.out round (Q.add acc (Q.load v))) = .ok b' ∧
        Done Q a s n off w 1 round dst (x + 1) (Q.sub (Q.add acc (Q.load v)) (Q.load u)) b' := by
    rintro x acc b v u hx rfl rfl h
    exact h.step Q hd hx
  have h0 := Done.start Q a s n off w 1 round dst
  unfold blurR1
  rw [rdD h0 0 (by omega) (by omega), Res.bind_ok, rdD h0 1 (by omega) (by omega), Res.bind_ok, ha, Res.bind_ok]
  dsimp only
  obtain ⟨b1, e1, h1⟩ := wrD (x := 0) (by omega) (show s 1 = _ by rw [show min (0 + 1) (w - 1) = 1 by omega]) (show s 0 = s (0 - 1) from rfl) h0
  rw [e1, Res.bind_ok, rdD h1 2 (by omega) (by omega), Res.bind_ok]
  obtain ⟨b2, e2, h2⟩ := wrD (x := 0 + 1) (by omega) (show s 2 = _ by rw [show min (0 + 1 + 1) (w - 1) = 2 by omega])
    (show s 0 = s (0 + 1 - 1) from rfl) h1
  rw [show rowWr n off b1 1 = rowWr n off b1 (0 + 1) from rfl, e2, Res.bind_ok]
  obtain ⟨q, e3, h3, t0, t1⟩ := forFrom_spec (turnR1 Q R n off round) 2
    (fun k q => Done Q a s n off w 1 round dst (2 + k * 2) q.acc q.row ∧ q.tmp0 = s (2 + k * 2) ∧ q.tmp1 = s (1 + k * 2)) 2 ((w - 3) / 2)
    ⟨Q.sub (Q.add (Q.sub (Q.add a (Q.load (s 1))) (Q.load (s 0))) (Q.load (s 2))) (Q.load (s 0)), b2, s 2, s 1⟩ ⟨h2, rfl, rfl⟩ (by
      rintro k ⟨acc, b, tmp0, tmp1⟩ hk ⟨h, rfl, rfl⟩
      dsimp only at h ⊢
      have hk2 : k * 2 + 4 < w + 1 := by omega
      unfold turnR1
      dsimp only
      rw [rdD h (2 + k * 2 + 1) (by omega) (by omega), Res.bind_ok]
      obtain ⟨b', e, h'⟩ := wrD (v := s (2 + k * 2 + 1)) (u := s (1 + k * 2)) (by omega)
        (by rw [show min (2 + k * 2 + 1) (w - 1) = 2 + k * 2 + 1 by omega]) (by rw [show 2 + k * 2 - 1 = 1 + k * 2 by omega]) h
      rw [e, Res.bind_ok, rdD h' (2 + k * 2 + 2) (by omega) (by omega), Res.bind_ok]
      obtain ⟨b'', e', h''⟩ := wrD (v := s (2 + k * 2 + 2)) (u := s (2 + k * 2)) (by omega)
        (by rw [show min (2 + k * 2 + 1 + 1) (w - 1) = 2 + k * 2 + 2 by omega]) (by rw [show 2 + k * 2 + 1 - 1 = 2 + k * 2 by omega]) h'
      rw [e', Res.bind_ok]
      refine ⟨_, rfl, ?_, ?_, ?_⟩
      · rw [show 2 + (k + 1) * 2 = 2 + k * 2 + 1 + 1 by omega]
        exact h''
      · rw [show 2 + (k + 1) * 2 = 2 + k * 2 + 2 by omega]
      · rw [show 1 + (k + 1) * 2 = 2 + k * 2 + 1 by omega])
  rw [e3, Res.bind_ok]
  split
  · rename_i hodd
    have ex : 2 + (w - 3) / 2 * 2 = w - 1 := by omega
    rw [ex] at h3 t0
    obtain ⟨b', e, h'⟩ := wrD (v := q.tmp0) (u := _) (by omega) (by rw [t0, show min (w - 1 + 1) (w - 1) = w - 1 by omega]) rfl h3
    exact ⟨b', e, h'.out, fun x hx => h'.done x (by omega) hx⟩
  · rename_i heven
    have ex : 2 + (w - 3) / 2 * 2 = w - 2 := by omega
    have ex' : 1 + (w - 3) / 2 * 2 = w - 3 := by omega
    rw [ex] at h3
    rw [ex'] at t1
    rw [rdD h3 (w - 1) (by omega) (by omega), Res.bind_ok]
    obtain ⟨b', e, h'⟩ := wrD (v := s (w - 1)) (u := q.tmp1) (by omega) (by rw [show min (w - 2 + 1) (w - 1) = w - 1 by omega])
      (by rw [t1, show w - 2 - 1 = w - 3 by omega]) h3
    rw [e, Res.bind_ok]
    obtain ⟨b'', e', h''⟩ := wrD (v := s (w - 1)) (u := _) (by omega) (by rw [show min (w - 2 + 1 + 1) (w - 1) = w - 1 by omega]) rfl h'
    rw [show w - 2 + 1 = w - 1 by omega] at e' h''
    exact ⟨b'', e', h''.out, fun x hx => h''.done x (by omega) hx⟩

end VS.Blur
