import Mathlib.Data.Rat.Floor
import Mathlib.Algebra.Order.Field.Rat

/-!
# IEEE doubles, without reference to an algorithm
-/

namespace Verif.Spec

/-- a number with a significand of at most 53 bits (exponents are unbounded) -/
def IsDouble (d : ℚ) : Prop := ∃ (m e : Int), |m| ≤ 2 ^ 53 ∧ d = m * (2 : ℚ) ^ e

/-- `d` is a double and none is nearer to `x` -/
def Nearest (x d : ℚ) : Prop := IsDouble d ∧ ∀ d', IsDouble d' → |d - x| ≤ |d' - x|

end Verif.Spec
