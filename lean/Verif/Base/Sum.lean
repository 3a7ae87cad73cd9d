/-!
# Sums over the numbers below a bound
-/

namespace VS

def sumTo (f : Nat → Nat) : Nat → Nat
  | 0 => 0
  | n + 1 => sumTo f n + f n

theorem sumTo_congr {f f' : Nat → Nat} : ∀ {n : Nat}, (∀ x < n, f' x = f x) → sumTo f' n = sumTo f n
  | 0, _ => rfl
  | n + 1, h => by
    show sumTo f' n + f' n = sumTo f n + f n
    rw [sumTo_congr (fun x hx => h x (Nat.lt_succ_of_lt hx)), h n (Nat.lt_succ_self n)]

/-- One value changes. -/
theorem sumTo_one {f f' : Nat → Nat} {c : Nat} : ∀ {n : Nat}, c < n → (∀ x < n, x ≠ c → f' x = f x) →
    sumTo f' n + f c = sumTo f n + f' c
  | 0, h, _ => absurd h (Nat.not_lt_zero _)
  | n + 1, h, hx => by
    show sumTo f' n + f' n + f c = sumTo f n + f n + f' c
    by_cases e : c = n
    · subst e
      rw [sumTo_congr (f := f) (fun x hx' => hx x (Nat.lt_succ_of_lt hx') (Nat.ne_of_lt hx'))]
      omega
    · have := sumTo_one (f := f) (f' := f') (c := c) (n := n) (by omega)
        (fun x hx' hne => hx x (Nat.lt_succ_of_lt hx') hne)
      have := hx n (Nat.lt_succ_self n) (Ne.symm e)
      omega

theorem sumTo_add (f : Nat → Nat) (n : Nat) : ∀ m, sumTo f (n + m) = sumTo f n + sumTo (fun x => f (n + x)) m
  | 0 => rfl
  | m + 1 => by
    show sumTo f (n + m) + f (n + m) = sumTo f n + (sumTo _ m + f (n + m))
    rw [sumTo_add f n m]
    omega

end VS
