import Verif.Spec.Request
import Verif.Uni.Predict

/-!
# Specification: what an answer is about

Only the interface types of the model are used (`Params`, `PyVal`, `Detector`, `Item`).
-/

namespace Verif.Spec

/-- the detect mode in effect for a call: that of the detector object, else the one in the request -/
def InMode (d : Detector) (params : Params) (m : DetectType) : Prop :=
  d.mode = .dtype m ∨ (d.mode = .none ∧ params "detect_mode" = some (.dtype m))

/-- item number `k` of an answer to a request with `n` rows talks about input row `i` -/
def Concerns (m : DetectType) (n k i : Nat) : Prop :=
  match m with
  | .ENTIRE => i = k
  | .LATEST => k = 0 ∧ i + 1 = n

/-- the numeric value of input row `i` -/
def RowValue (parse : String → Option PyFloat) (rows : List (PyVal × PyVal)) (i : Nat) (q : ℚ) : Prop :=
  ∃ c, rows[i]? = some c ∧ Reads parse c.2 q

/-- the timestamp of input row `i`: its cell, or the row number when there is no timestamp column -/
def RowStamp (hasTs : Bool) (rows : List (PyVal × PyVal)) (i : Nat) (ts : PyVal) : Prop :=
  ∃ c, rows[i]? = some c ∧ ts = if hasTs then c.1 else .int i

/-- inside the reported band -/
def InBand (it : Item) (q : ℚ) : Prop := it.expected - it.lower ≤ q ∧ q ≤ it.expected + it.upper

/-- default window per granularity (the table in the documentation of `suggested_window`) -/
def defaultWindow : String → Nat
  | "daily" => 28
  | "hourly" => 168
  | "weekly" => 12
  | "monthly" => 12
  | "yearly" => 12
  | "microsecond" => 1000
  | _ => 1440

end Verif.Spec
