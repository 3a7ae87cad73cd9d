import Verif.Wave.Spec

/-!
# Helper lemmas: bytes and loops
-/

namespace VS.Wave
open VS VS.Audio

theorem le_length : ∀ (w v : Nat), (le w v).length = w
  | 0, _ => rfl
  | w + 1, v => by simp [le, le_length w]

theorem le_lt : ∀ (w v : Nat), ∀ b ∈ le w v, b < 256
  | 0, _, b, h => by simp [le] at h
  | w + 1, v, b, h => by
    simp only [le, List.mem_cons] at h
    rcases h with h | h
    · omega
    · exact le_lt w _ b h

theorem le_ofLe : ∀ (l : List Nat), (∀ b ∈ l, b < 256) → le l.length (ofLe l) = l
  | [], _ => rfl
  | b :: l, h => by
    have hb : b < 256 := h b (by simp)
    have ih := le_ofLe l (fun x hx => h x (by simp [hx]))
    show (b + 256 * ofLe l) % 256 :: le l.length ((b + 256 * ofLe l) / 256) = b :: l
    rw [show (b + 256 * ofLe l) % 256 = b by omega, show (b + 256 * ofLe l) / 256 = ofLe l by omega, ih]

/-- The swapped number is written in little endian order. -/
theorem host_swap (big : Bool) (w v : Nat) : hostBytes big w (swapLe big w v) = le w v := by
  cases big with
  | false => rfl
  | true =>
    have h := le_ofLe (le w v).reverse (fun b hb => le_lt w v b (by simpa using hb))
    rw [List.length_reverse, le_length] at h
    show (le w (ofLe (le w v).reverse)).reverse = le w v
    rw [h, List.reverse_reverse]

theorem field_eq (big : Bool) (w : Nat) (v : Int) : field big w v = le w (v % 256 ^ w).toNat := host_swap big w _

/-- The bytes in little endian order. -/
def order (big : Bool) (l : List Nat) : List Nat := if big then l.reverse else l

theorem order_length (big : Bool) (l : List Nat) : (order big l).length = l.length := by cases big <;> simp [order]

theorem order_lt (big : Bool) (l : List Nat) (h : ∀ b ∈ l, b < 256) : ∀ b ∈ order big l, b < 256 := by
  cases big
  · exact h
  · intro b hb
    exact h b (by simpa [order] using hb)

theorem host_swap_num (big : Bool) (l : List Nat) (h : ∀ b ∈ l, b < 256) :
    hostBytes big l.length (swapLe big l.length (hostNum big l)) = order big l := by
  rw [host_swap]
  have := le_ofLe (order big l) (order_lt big l h)
  rw [order_length] at this
  exact this

theorem ofLe_digit : ∀ (l : List Nat), (∀ b ∈ l, b < 256) → ∀ (k : Nat) (hk : k < l.length), ofLe l / 256 ^ k % 256 = l[k]
  | [], _, k, hk => absurd hk (Nat.not_lt_zero _)
  | b :: l, h, 0, _ => by
    have hb : b < 256 := h b (by simp)
    simp only [ofLe, Nat.pow_zero, Nat.div_one, List.getElem_cons_zero]
    omega
  | b :: l, h, k + 1, hk => by
    have hb : b < 256 := h b (by simp)
    have ih := ofLe_digit l (fun x hx => h x (by simp [hx])) k (by simpa using hk)
    rw [List.getElem_cons_succ, ← ih, Nat.pow_succ, Nat.mul_comm, ← Nat.div_div_eq_div_mul]
    simp only [ofLe]
    rw [show (b + 256 * ofLe l) / 256 = ofLe l by omega]

theorem sumTo_mul (a : Nat) (f : Nat → Nat) : ∀ n, sumTo (fun k => a * f k) n = a * sumTo f n
  | 0 => rfl
  | n + 1 => by
    show sumTo _ n + a * f n = a * (sumTo f n + f n)
    rw [sumTo_mul a f n, Nat.mul_add]

theorem ofLe_sum : ∀ (l : List Nat), ofLe l = sumTo (fun k => l[k]?.getD 0 * 256 ^ k) l.length
  | [] => rfl
  | b :: l => by
    have h := sumTo_add (fun k => (b :: l)[k]?.getD 0 * 256 ^ k) 1 l.length
    rw [List.length_cons, Nat.add_comm l.length 1, h, ofLe, ofLe_sum l, ← sumTo_mul]
    have e : sumTo (fun k => (b :: l)[k]?.getD 0 * 256 ^ k) 1 = b := by simp [sumTo]
    rw [e]
    congr 1
    apply sumTo_congr
    intro x _
    simp only [Nat.add_comm 1 x, List.getElem?_cons_succ, Nat.pow_succ]
    ac_rfl

/-- The bytes of sample `i`. -/
def raw (w : Nat) (m : List Nat) (i : Nat) : List Nat := (m.drop (i * w)).take w

theorem raw_length {w : Nat} {m : List Nat} {i : Nat} (h : (i + 1) * w ≤ m.length) : (raw w m i).length = w := by
  have : (i + 1) * w = i * w + w := by rw [Nat.add_mul, Nat.one_mul]
  simp only [raw, List.length_take, List.length_drop]
  omega

theorem raw_lt {w : Nat} {m : List Nat} {i : Nat} (h : ∀ b ∈ m, b < 256) : ∀ b ∈ raw w m i, b < 256 :=
  fun b hb => h b (List.mem_of_mem_drop (List.mem_of_mem_take hb))

theorem order_get {big : Bool} {w : Nat} {m : List Nat} {i : Nat} (h : (i + 1) * w ≤ m.length) {k : Nat} (hk : k < w) :
    (order big (raw w m i))[k]? = m[i * w + (if big then w - 1 - k else k)]? := by
  have hl := raw_length h
  cases big
  · simp [order, raw, List.getElem?_take, hk]
  · show (raw w m i).reverse[k]? = m[i * w + (w - 1 - k)]?
    rw [List.getElem?_reverse (by omega), hl]
    simp only [raw, List.getElem?_take, List.getElem?_drop]
    rw [if_pos (by omega)]

theorem sample_eq {big : Bool} {w : Nat} {m : List Nat} {i : Nat} (h : (i + 1) * w ≤ m.length) :
    sample big w m i = ofLe (order big (raw w m i)) := by
  rw [ofLe_sum, order_length, raw_length h]
  apply sumTo_congr
  intro x hx
  show _ = (order big (raw w m i))[x]?.getD 0 * 256 ^ x
  rw [order_get h hx]

/-- What is written for a sample: the `o` most significant bytes. -/
def cellOut (big : Bool) (w o : Nat) (m : List Nat) (i : Nat) : List Nat := (order big (raw w m i)).drop (w - o)

theorem cellOut_length {big : Bool} {w o : Nat} {m : List Nat} {i : Nat} (h : (i + 1) * w ≤ m.length) (ho : o ≤ w) :
    (cellOut big w o m i).length = o := by
  simp only [cellOut, List.length_drop, order_length, raw_length h]
  omega

theorem cellOut_get {big : Bool} {w o : Nat} {m : List Nat} {i : Nat} (h : (i + 1) * w ≤ m.length)
    (hb : ∀ b ∈ m, b < 256) (ho : o ≤ w) {b : Nat} (hbo : b < o) :
    (cellOut big w o m i)[b]? = some (sample big w m i / 256 ^ (w - o + b) % 256) := by
  have hl : w - o + b < (order big (raw w m i)).length := by rw [order_length, raw_length h]; omega
  rw [sample_eq h, ofLe_digit _ (order_lt big _ (raw_lt hb)) _ hl, cellOut, List.getElem?_drop,
    List.getElem?_eq_getElem hl]

theorem load_raw {w : Nat} {m : List Nat} {i : Nat} (h : (i + 1) * w ≤ m.length) : load m (i * w) w = .ok (raw w m i) := by
  have : (i + 1) * w = i * w + w := by rw [Nat.add_mul, Nat.one_mul]
  unfold load
  rw [if_pos (by omega)]
  rfl

theorem sameCell_eq {big : Bool} {w : Nat} {m : List Nat} {i : Nat} (h : (i + 1) * w ≤ m.length)
    (hb : ∀ b ∈ m, b < 256) : sameCell big w m i = .ok (cellOut big w w m i) := by
  have h1 := host_swap_num big (raw w m i) (raw_lt hb)
  rw [raw_length h] at h1
  unfold sameCell
  rw [load_raw h, Res.bind_ok, h1, cellOut, Nat.sub_self, List.drop_zero]

theorem cell24_eq {big : Bool} {m : List Nat} {i : Nat} (h : (i + 1) * 4 ≤ m.length) :
    cell24 big m i = .ok (cellOut big 4 3 m i) := by
  have hl : 4 ≤ (m.drop (i * 4)).length := by rw [List.length_drop]; omega
  have hd : ∀ k, m.drop (i * 4 + k) = (m.drop (i * 4)).drop k := fun k => by rw [List.drop_drop]
  cases hm : m.drop (i * 4) with
  | nil => rw [hm] at hl; simp at hl
  | cons a l =>
    match l, hm with
    | [], hm => rw [hm] at hl; simp at hl
    | [_], hm => rw [hm] at hl; simp at hl
    | [_, _], hm => rw [hm] at hl; simp at hl
    | b :: c :: d :: t, hm =>
      unfold cell24 cellOut order raw load
      cases big
      · rw [if_neg (by simp), if_pos (by omega), hd, hm]
        rfl
      · rw [if_pos rfl, if_pos (by omega), if_pos (by omega), if_pos (by omega), hd, hd, hd, hm]
        rfl

/-! ## Loops -/

theorem store_append (pre rest l : List Nat) (h : l.length ≤ rest.length) :
    store (pre ++ rest) pre.length l = .ok (pre ++ l ++ rest.drop l.length) := by
  unfold store
  rw [if_pos (by rw [List.length_append]; omega), List.take_left, List.drop_append]
  simp

theorem packRow_eq (cell : List Nat → Nat → Res (List Nat)) (o : Nat) (src : List (List Nat)) (i d : Nat)
    (out : List Nat → List Nat) (ho : ∀ m ∈ src, cell m i = .ok (out m) ∧ (out m).length = o) :
    ∀ (todo done : List (List Nat)) (pre rest : List Nat), src = done ++ todo → pre.length = d + done.length * o →
      todo.length * o ≤ rest.length →
      packRow cell o src i d done.length todo.length (pre ++ rest) =
        .ok (pre ++ todo.flatMap out ++ rest.drop (todo.length * o))
  | [], done, pre, rest, _, _, _ => by simp [packRow]
  | m :: t, done, pre, rest, hs, hp, hr => by
    have hm : m ∈ src := by rw [hs]; simp
    obtain ⟨h1, h2⟩ := ho m hm
    have hc : channel src done.length = .ok m := by
      unfold channel
      rw [hs, List.getElem?_append_right (Nat.le_refl _)]
      simp
    have e : (t.length + 1) * o = t.length * o + o := by rw [Nat.add_mul, Nat.one_mul]
    rw [List.length_cons] at hr
    have ih := packRow_eq cell o src i d out ho t (done ++ [m]) (pre ++ out m) (rest.drop o) (by rw [hs]; simp)
      (by simp only [List.length_append, hp, h2, List.length_singleton, Nat.add_mul, Nat.one_mul]; omega)
      (by rw [List.length_drop]; omega)
    have hst := store_append pre rest (out m) (by rw [h2]; omega)
    rw [h2, hp] at hst
    rw [List.length_append, List.length_singleton] at ih
    show (channel src done.length >>= fun m => cell m i >>= fun l => store (pre ++ rest) (d + done.length * o) l >>=
      fun buf => packRow cell o src i d (done.length + 1) t.length buf) = _
    rw [hc, Res.bind_ok, h1, Res.bind_ok, hst, Res.bind_ok, ih]
    simp only [List.flatMap_cons, List.append_assoc, List.drop_drop, List.length_cons, e, Nat.add_comm o]

/-- The samples of a frame in output order, from sample `i` on. -/
def rows (cout : List Nat → Nat → List Nat) (src : List (List Nat)) (i n : Nat) : List Nat :=
  (List.range' i n).flatMap fun i => src.flatMap fun m => cout m i

theorem packLoop_eq (cell : List Nat → Nat → Res (List Nat)) (o : Nat) (src : List (List Nat))
    (out : List Nat → Nat → List Nat) (len : Nat)
    (ho : ∀ m ∈ src, ∀ i < len, cell m i = .ok (out m i) ∧ (out m i).length = o) :
    ∀ (n i : Nat) (pre rest : List Nat), i + n ≤ len → pre.length = i * (src.length * o) →
      n * (src.length * o) ≤ rest.length →
      packLoop cell o src.length src i pre.length n (pre ++ rest) =
        .ok (pre ++ rows out src i n ++ rest.drop (n * (src.length * o)))
  | 0, i, pre, rest, _, _, _ => by simp [packLoop, rows]
  | n + 1, i, pre, rest, hi, hp, hr => by
    have e : (n + 1) * (src.length * o) = n * (src.length * o) + src.length * o := by rw [Nat.add_mul, Nat.one_mul]
    have h1 := packRow_eq cell o src i pre.length (fun m => out m i) (fun m hm => ho m hm i (by omega)) src [] pre rest
      rfl (by simp) (by omega)
    have hl : (src.flatMap fun m => out m i).length = src.length * o := by
      have : ∀ l : List (List Nat), (∀ m ∈ l, (out m i).length = o) → (l.flatMap fun m => out m i).length = l.length * o := by
        intro l
        induction l with
        | nil => intro _; simp
        | cons a t ih =>
          intro h
          rw [List.flatMap_cons, List.length_append, ih (fun m hm => h m (by simp [hm])), h a (by simp), List.length_cons,
            Nat.add_mul, Nat.one_mul, Nat.add_comm]
      exact this src (fun m hm => (ho m hm i (by omega)).2)
    have ih := packLoop_eq cell o src out len ho n (i + 1) (pre ++ src.flatMap fun m => out m i)
      (rest.drop (src.length * o)) (by omega)
      (by rw [List.length_append, hl, hp, Nat.add_mul, Nat.one_mul]) (by rw [List.length_drop]; omega)
    rw [List.length_append, hl] at ih
    show (packRow cell o src i pre.length 0 src.length (pre ++ rest) >>= fun buf =>
      packLoop cell o src.length src (i + 1) (pre.length + src.length * o) n buf) = _
    rw [List.length_nil] at h1
    rw [h1, Res.bind_ok, ih]
    simp only [rows, List.range'_succ, List.flatMap_cons, List.append_assoc, List.drop_drop, e,
      Nat.add_comm (src.length * o)]

/-! ## Positions in concatenations -/

theorem flatMap_get {α : Type} (f : α → List Nat) (N : Nat) : ∀ (l : List α) (k j : Nat) (x : α), l[k]? = some x →
    (∀ k' y, k' < k → l[k']? = some y → (f y).length = N) → j < (f x).length →
    (l.flatMap f)[k * N + j]? = (f x)[j]?
  | [], k, j, x, h, _, _ => by simp at h
  | a :: t, 0, j, x, h, _, hj => by
    have : a = x := by simpa using h
    subst this
    rw [List.flatMap_cons, Nat.zero_mul, Nat.zero_add, List.getElem?_append_left hj]
  | a :: t, k + 1, j, x, h, hN, hj => by
    have ha : (f a).length = N := hN 0 a (by omega) rfl
    rw [List.flatMap_cons, List.getElem?_append_right (by rw [ha, Nat.add_mul]; omega), ha,
      show (k + 1) * N + j - N = k * N + j by rw [Nat.add_mul]; omega]
    exact flatMap_get f N t k j x (by simpa using h) (fun k' y hk' hy => hN (k' + 1) y (by omega) (by simpa using hy)) hj

theorem flatMap_length {α : Type} (f : α → List Nat) (N : Nat) : ∀ (l : List α), (∀ x ∈ l, (f x).length = N) →
    (l.flatMap f).length = l.length * N
  | [], _ => by simp
  | a :: t, h => by
    rw [List.flatMap_cons, List.length_append, flatMap_length f N t (fun x hx => h x (by simp [hx])), h a (by simp),
      List.length_cons, Nat.add_mul, Nat.one_mul, Nat.add_comm]

end VS.Wave
