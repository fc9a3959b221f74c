import Verif.Spec.Output
import Mathlib.Data.Finset.Card

/-!
# Vocabulary for the fusion inside the models and for the two modes
-/

namespace Verif.Spec

/-- a point `x` proposed by the third detector still finds room: the points of the first two detectors and those the third
one ranks before `x` are fewer than `m` -/
def Room (m : Nat) (e z r : List Nat) (x : Nat) : Prop := (e ++ z ++ r.take (r.idxOf x)).toFinset.card < m

/-- the fullest of the 20 bins of a histogram of the values holds at most 60% of them -/
def Spread (E : Env) (data : DataArg) : Prop :=
  ∀ hasTs hasValue rows vs s, data = .frame hasTs hasValue rows → vs.length = rows.length →
    (∀ i q, vs[i]? = some q → RowValue E.parseFloat rows i q) → E.histMajority vs = some s → s ≤ 6 / 10

end Verif.Spec
