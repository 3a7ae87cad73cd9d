import Verif.Base.C

/-!
# Rational helpers of the plugin SDK

Model of `muldivRational`, `reduceRational` and `addRational`, include/VSHelper4.h:117-169.
A failed `assert` is `fatal`; signed overflow of the 64 bit operations, `INT64_MIN % -1` and
`-INT64_MIN` are `ub`.
-/

namespace VS

/-- The Euclid loop, include/VSHelper4.h:129-135 (`while (b != 0) { t = a; a = b; b = t % b; }`). -/
def gcdLoop (a b : Int) : Res Int :=
  if b = 0 then .ok a
  else if a = INT64_MIN ∧ b = -1 then .ub
  else gcdLoop b (a.tmod b)
termination_by b.natAbs
decreasing_by
  rw [Int.natAbs_tmod]
  exact Nat.mod_lt _ (by omega)

/-- `if (a < 0) a = -a;`, include/VSHelper4.h:136-137. -/
def makePositive (a : Int) : Res Int := if a < 0 then i64 (-a) else .ok a

/-- `muldivRational`, include/VSHelper4.h:118-140. Returns the updated `(*num, *den)`. -/
def muldivRational (num den mul div : Int) : Res (Int × Int) :=
  if den = 0 then .ok (num, den)
  else if div = 0 then .fatal "assert(div)"
  else do
    let num ← i64 (num * mul)
    let den ← i64 (den * div)
    let a ← gcdLoop num den
    let a ← makePositive a
    pure (num.tdiv a, den.tdiv a)

/-- `reduceRational`, include/VSHelper4.h:143-145. -/
def reduceRational (num den : Int) : Res (Int × Int) := muldivRational num den 1 1

/-- `addRational`, include/VSHelper4.h:148-169. Returns the updated `(*num, *den)`. -/
def addRational (num den addnum addden : Int) : Res (Int × Int) :=
  if den = 0 then .ok (num, den)
  else if addden = 0 then .fatal "assert(addden)"
  else if den = addden then do
    let num ← i64 (num + addnum)
    pure (num, den)
  else do
    let temp := addden
    let addnum ← i64 (addnum * den)
    let _addden ← i64 (addden * den)
    let num ← i64 (num * temp)
    let den ← i64 (den * temp)
    let num ← i64 (num + addnum)
    reduceRational num den

end VS
