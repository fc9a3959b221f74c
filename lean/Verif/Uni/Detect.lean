import Verif.Uni.Helpers
import Verif.Uni.Kernel
import Verif.Uni.Rounding

/-!
# Detectors and their fusion

Model of `univariate/detectors/esd_filter.py`, `detectors/z_score.py`, `model/detect.py`.
A sorted pandas Series is a list of pairs (index label, value).
-/

namespace Verif

/-- `Direction` (`util/fields.py:46-48`). -/
inductive Direction where
  | upper | lower
  deriving DecidableEq, Repr

/-- `data.sort_values(ascending=True)` as (label, value) pairs. -/
def sortedSeries (E : Env) (data : List ℚ) : List (Nat × ℚ) :=
  (E.argsort data).map fun i => (i, data.getD i 0)

/-- the view a detector takes of the sorted series for a direction: `iloc[::-1]` for the upper tail
(`esd_filter.py:24-26`, `z_score.py:25-27`) -/
def tailView (s : List (Nat × ℚ)) : Direction → List (Nat × ℚ)
  | .upper => s.reverse
  | .lower => s

/-- number of entries kept by `detect_data[:next(i for i in reversed(range(len)) if |x_i - m| < EPS)+1]`
(`esd_filter.py:27-29`); `none` is StopIteration -/
def majorityCut (m : ℚ) (s : List (Nat × ℚ)) : Option Nat :=
  ((List.range s.length).reverse.find? fun i => decide (|(s.getD i (0, 0)).2 - m| < EPS)).map (· + 1)

/-- `ESD.__init__` and `ESD.detect` (`detectors/esd_filter.py:11-49`). `last` tells whether `last_value` is given. -/
def esdDetect (E : Env) (sorted : List (Nat × ℚ)) (maxOutliers : Nat) (majority : Option ℚ) (alpha : PyFloat)
    (dir : Direction) (last : Bool) : Except PyErr (List Nat) := do
  let view := tailView sorted dir
  let dd ← match majority with
    | none => pure view
    | some m => match majorityCut m view with
      | some k => pure (view.take k)
      | none => throw .exception
  -- 21-22: the label of the latest point is the greatest index
  let lastIdx : Option Nat ←
    if last then pure (some ((dd.map (·.1)).idxOf (sorted.length - 1))) else pure none
  if last && !((dd.map (·.1)).contains (sorted.length - 1)) then pure []                -- 32-33
  else
    let critical := match majority with                                                 -- 16-17, 37-38
      | none => getCritical E alpha sorted.length maxOutliers
      | some _ => getCritical E alpha dd.length maxOutliers
    generalizedEsdTest E.f32 E.gaussC E.std (dd.map (·.2)) (dd.map (·.1)) maxOutliers critical
      (dir = .upper) lastIdx

/-- `ZScoreDetector` (`detectors/z_score.py:13-33`). It ignores `last_value`. -/
def zscoreDetect (E : Env) (sorted : List (Nat × ℚ)) (maxOutliers : Nat) (dir : Direction) : List Nat :=
  let vs := sorted.map (·.2)
  let mad0 := E.mad vs
  let med := if mad0 = 0 then npMean vs else npMedian vs                                -- 16-20
  let mad := if mad0 = 0 then E.std vs else mad0
  if mad = 0 then []                                                                    -- 23-24
  else
    (((tailView sorted dir).take maxOutliers).filter fun x => decide (3 < |x.2 - med| / mad)).map (·.1)

/-- `anomaly[index] += k` or `anomaly[index] = k + i * num_obs` (`model/detect.py:18-23`) on an
insertion-ordered dict. -/
def dictAdd (d : List (Nat × Nat)) (index incr init : Nat) : List (Nat × Nat) :=
  if d.any (fun x => x.1 == index) then
    d.map fun x => if x.1 = index then (x.1, x.2 + incr) else x
  else d ++ [(index, init)]

/-- inner loop over the proposals of detector number `i` -/
def addProposals (numObs i : Nat) : List Nat → Nat → List (Nat × Nat) → List (Nat × Nat)
  | [], _, d => d
  | x :: t, k, d => addProposals numObs i t (k + 1) (dictAdd d x k (k + i * numObs))

/-- loop over detectors (`model/detect.py:13-23`) -/
def collect (numObs : Nat) : List (List Nat) → Nat → List (Nat × Nat) → List (Nat × Nat)
  | [], _, d => d
  | p :: t, i, d => collect numObs t (i + 1) (addProposals numObs i p 0 d)

/-- `sorted(anomaly, key=anomaly.get)[:max_outliers]` (`model/detect.py:25-27`); the sort is stable. -/
def rankTake (maxOutliers : Nat) (d : List (Nat × Nat)) : List Nat :=
  ((d.insertionSort fun a b => a.2 ≤ b.2).map (·.1)).take maxOutliers

/-- anomalies of one direction -/
def directionAnomalies (numObs maxOutliers : Nat) (proposals : List (List Nat)) : List Nat :=
  rankTake maxOutliers (collect numObs proposals 0 [])

/-- `detect(...)` (`model/detect.py:10-45`): the index of the outer join of the two direction frames. The
columns are overwritten by the callers (`modify_anomaly_status`), the row order is irrelevant to them. -/
def detectFuse (numObs maxOutliers : Nat) (upper lower : List (List Nat)) : List Nat :=
  let up := directionAnomalies numObs maxOutliers upper
  let lo := directionAnomalies numObs maxOutliers lower
  up ++ lo.filter fun x => !up.contains x

/-- `min(max(math.ceil(num_obs * ratio), 1), len(data) // 2 - 1)`
(`dynamic_threshold.py:50`, `seasonal_series.py:102`), the product in doubles; negative for fewer than two points, clipped to 0 here
(a negative bound would mean `[:-1]`; series always have at least 12 points). -/
def maxOutliersOf (n : Nat) (ratio : ℚ) : Nat :=
  min (max ((dmul n ratio).ceil.toNat) 1) (n / 2 - 1)

end Verif
