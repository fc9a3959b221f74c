import Mathlib.Data.Rat.Floor
import Mathlib.Algebra.Order.Field.Rat

/-!
# IEEE doubles

Rounding to nearest, ties to even, on 53 bits of significand. Exponents are unbounded: no overflow, no subnormals.
-/

namespace Verif

/-- Round a nonnegative rational to the nearest natural number, ties to even. -/
def roundHalfEven (q : ℚ) : Nat :=
  let f := q.floor.toNat
  let r := q - f
  if r < 1/2 then f else if 1/2 < r then f + 1 else if f % 2 = 0 then f else f + 1

/-- Round a positive rational to the nearest IEEE double (53 bit significand, unbounded exponent). -/
def roundDouble (q : ℚ) : ℚ :=
  if q ≤ 0 then 0
  else
    -- 2^e ≤ q < 2^(e+1)
    let e0 : Int := (Nat.log2 q.num.toNat : Int) - (Nat.log2 q.den : Int)
    let e : Int := if (2:ℚ)^e0 ≤ q then e0 else e0 - 1
    let ulp : ℚ := (2:ℚ)^(e - 52)
    roundHalfEven (q / ulp) * ulp

/-- Round a rational of any sign to the nearest IEEE double. -/
def roundSigned (q : ℚ) : ℚ := if q < 0 then -roundDouble (-q) else roundDouble q

/-- `a * b` in IEEE doubles, for the exact values `a` and `b` -/
def dmul (a b : ℚ) : ℚ := roundSigned (a * b)

/-- `a / b` in IEEE doubles, for the exact values `a` and `b` -/
def ddiv (a b : ℚ) : ℚ := roundSigned (a / b)

end Verif
