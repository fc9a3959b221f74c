import Verif.Py
import Mathlib.Algebra.Order.Field.Rat
import Mathlib.Data.List.Basic

/-!
# Specification: decompositions, spectral residual, histogram
-/

namespace Verif.Spec

/-- three components of a series that add up to it exactly -/
structure Additive (series trend seasonal remainder : List ℚ) : Prop where
  trend_len : trend.length = series.length
  seasonal_len : seasonal.length = series.length
  remainder_len : remainder.length = series.length
  sum : ∀ i, i < series.length →
    trend.getD i 0 + seasonal.getD i 0 + remainder.getD i 0 = series.getD i 0

/-- product of the positive entries -/
def posProd {α : Type} [Field α] [LinearOrder α] (l : List α) : α := (l.filter fun x => 0 < x).prod

/-- the last `k` of the first `i + 1` entries -/
def trailing {α : Type} (k : Nat) (l : List α) (i : Nat) : List α := (l.take (i + 1)).drop (i + 1 - k)

/-- `b` of the 20 equal bins between `lo` and `hi` contains `x`; the last bin is closed -/
def InBin (lo hi : ℚ) (b : Nat) (x : ℚ) : Prop :=
  b < 20 ∧ lo + b * (hi - lo) / 20 ≤ x ∧ (x < lo + (b + 1) * (hi - lo) / 20 ∨ b = 19)

instance (lo hi : ℚ) (b : Nat) (x : ℚ) : Decidable (InBin lo hi b x) := by unfold InBin; infer_instance

end Verif.Spec
