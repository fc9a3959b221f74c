import Verif.Uni.Env
import Verif.Spec.Request

/-!
# When a univariate request is answered

The assumption on the numeric libraries under which a request can be shown to be answered, and the length of the series that
is analysed.
-/

namespace Verif.Spec

/-- The library functions return on the inputs that they document: trend fits of at least 12 points, decompositions of more
than two periods, splines through at least 4 points at ascending positions of the grid. -/
structure Total (E : Env) : Prop where
  trend : ∀ l p, 12 ≤ l.length → ∃ r, E.fitTrend l p = .ok r
  trendNaN : ∀ l, 12 ≤ l.length → ∃ r, E.fitTrendNaN l = .ok r
  stl : ∀ adjust l p log, 2 ≤ p → 2 * p < l.length → ∃ r, E.stl adjust l p log = .ok r
  spline : ∀ (i : List Nat) (v : List ℚ) n, i.Pairwise (· < ·) → i.length = v.length → 4 ≤ v.length → (∀ k ∈ i, k < n) →
    ∃ r, E.spline i v n = .ok r

/-- the request leaves gaps as they are -/
def LeavesGaps (p : Params) : Prop :=
  (∃ s ∈ ["no", "notFill"], p "imputeMode" = some (.str s)) ∨
    (AbsentOrNone p "imputeMode" ∧ ∃ s ∈ ["no", "zero", "notFill"], p "fillUpMode" = some (.str s))

/-- the number of points that a seasonal analysis sees: all positions of the grid if gaps are filled, otherwise the rows -/
def Analysed (p : Params) (rows : Nat) (idx : List Int) (n : Int) : Prop :=
  (LeavesGaps p ∧ n = rows) ∨ (¬ LeavesGaps p ∧ n = idx.getLastD 0 + 1)

/-- the ratio of the request is absent (0.25 is used) or a number up to 3/8 -/
def ModestRatio (p : Params) : Prop :=
  Absent p "maxAnomalyRatio" ∨ ∃ q : ℚ, p "maxAnomalyRatio" = some (.float (.fin q)) ∧ q ≤ 3 / 8

end Verif.Spec
