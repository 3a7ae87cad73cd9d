/-!
# C integer arithmetic and call outcomes

Shared conventions of the model.  A call into the modelled program can

* return a value (`ok`),
* report an error to the caller, `mapSetError`/`RETERROR` (`err`),
* abort the process, `VSCore::logFatal`/`std::terminate`/failed `assert` (`fatal`),
* run into undefined behaviour of C++ (`ub`): signed overflow, out of bounds access,
  null dereference.

None of the four is ever identified with another one.
-/

namespace VS

/-- Outcome of a modelled call. -/
inductive Res (α : Type) where
  | ok (a : α)
  | err (msg : String)
  | fatal (msg : String)
  | ub
  deriving Repr, DecidableEq

namespace Res

/-- Sequencing: the first outcome that is not `ok` ends the call. -/
def bind {α β : Type} : Res α → (α → Res β) → Res β
  | .ok a, f => f a
  | .err m, _ => .err m
  | .fatal m, _ => .fatal m
  | .ub, _ => .ub

instance : Monad Res where
  pure := Res.ok
  bind := Res.bind

/-- Did the call return a value? -/
def isOk {α : Type} : Res α → Bool
  | .ok _ => true
  | _ => false

@[simp] theorem bind_ok {α β : Type} (a : α) (f : α → Res β) : ((Res.ok a) >>= f) = f a := rfl
@[simp] theorem bind_err {α β : Type} (m : String) (f : α → Res β) :
    ((Res.err m : Res α) >>= f) = Res.err m := rfl
@[simp] theorem bind_fatal {α β : Type} (m : String) (f : α → Res β) :
    ((Res.fatal m : Res α) >>= f) = Res.fatal m := rfl
@[simp] theorem bind_ub {α β : Type} (f : α → Res β) : ((Res.ub : Res α) >>= f) = Res.ub := rfl
@[simp] theorem pure_eq {α : Type} (a : α) : (pure a : Res α) = Res.ok a := rfl

end Res

/-- `INT_MAX` of a 32 bit `int`. -/
def INT_MAX : Int := 2147483647
/-- `INT_MIN` of a 32 bit `int`. -/
def INT_MIN : Int := -2147483648
/-- `INT64_MAX`. -/
def INT64_MAX : Int := 9223372036854775807
/-- `INT64_MIN`. -/
def INT64_MIN : Int := -9223372036854775808

/-- The value is representable as a 32 bit `int`. -/
def InI32 (x : Int) : Prop := INT_MIN ≤ x ∧ x ≤ INT_MAX
/-- The value is representable as an `int64_t`. -/
def InI64 (x : Int) : Prop := INT64_MIN ≤ x ∧ x ≤ INT64_MAX

instance (x : Int) : Decidable (InI32 x) := inferInstanceAs (Decidable (_ ∧ _))
instance (x : Int) : Decidable (InI64 x) := inferInstanceAs (Decidable (_ ∧ _))

/-- Result of a C expression of type `int`: signed overflow is undefined. -/
def i32 (x : Int) : Res Int := if InI32 x then .ok x else .ub
/-- Result of a C expression of type `int64_t`: signed overflow is undefined. -/
def i64 (x : Int) : Res Int := if InI64 x then .ok x else .ub

theorem i32_ok {x : Int} (h : InI32 x) : i32 x = .ok x := by simp [i32, h]
theorem i64_ok {x : Int} (h : InI64 x) : i64 x = .ok x := by simp [i64, h]
theorem i32_ub {x : Int} (h : ¬ InI32 x) : i32 x = .ub := by simp [i32, h]
theorem i64_ub {x : Int} (h : ¬ InI64 x) : i64 x = .ub := by simp [i64, h]

/-- `int64ToIntS`, include/VSHelper4.h:172-178: conversion to `int` with saturation. -/
def int64ToIntS (i : Int) : Int :=
  if i > INT_MAX then INT_MAX else if i < INT_MIN then INT_MIN else i

theorem int64ToIntS_inI32 (i : Int) : InI32 (int64ToIntS i) := by
  unfold int64ToIntS InI32 INT_MAX INT_MIN; split <;> (try split) <;> omega

theorem int64ToIntS_of_inI32 {i : Int} (h : InI32 i) : int64ToIntS i = i := by
  unfold int64ToIntS InI32 INT_MAX INT_MIN at *; split <;> (try split) <;> omega

end VS
