import Verif.Uni.Env

/-!
# Numeric helpers

Model of the numeric half of `univariate/util/helpers.py`.
-/

namespace Verif

/-- `np.cumsum` -/
def cumsumFrom : ℚ → List ℚ → List ℚ
  | _, [] => []
  | s, x :: t => (s + x) :: cumsumFrom (s + x) t

def cumsum (l : List ℚ) : List ℚ := cumsumFrom 0 l

/-- `average_filter(values, n, fill_to_n)` (`helpers.py:37-62`). -/
def averageFilter (values : List ℚ) (fillN : Nat) (fillToN : Bool) : List ℚ :=
  let n := if values.length ≤ fillN then values.length else fillN          -- 48-50
  let cs := cumsum values                                                  -- 52
  (List.range values.length).map fun i =>
    if n ≤ i then (cs.getD i 0 - cs.getD (i - n) 0) / n                    -- 53-54
    else if i = 0 then cs.getD 0 0
    else if fillToN then                                                   -- 57-58
      (cs.getD i 0 + (cs.getD i 0 - values.getD i 0) / i * ((fillN : ℚ) - i - 1)) / fillN
    else cs.getD i 0 / (i + 1)                                             -- 60

/-- non-missing points of a vector with gaps, as interpolation knots -/
def obsKnots (l : List (Option ℚ)) : List (ℚ × ℚ) :=
  (presentFrom 0 l).map fun x => ((x.1 : ℚ), x.2)

/-- `interp(values)` (`helpers.py:65-71`): missing entries by `np.interp`, which raises ValueError when there
is no sample point. -/
def interp (l : List (Option ℚ)) : Except PyErr (List ℚ) :=
  if l.any Option.isNone && (presentFrom 0 l).isEmpty then .error .valueError
  else .ok (l.zipIdx.map fun x => x.1.getD (npInterp (obsKnots l) (x.2 : Nat)))

/-- `trend_detection(series, period=period)` (`helpers.py:74-78`). -/
def trendDetection (E : Env) (l : List ℚ) (period : Option Nat) : Except PyErr (List ℚ) :=
  if l.length < 6 then .ok (List.replicate l.length (npMean l)) else E.fitTrend l period

/-- `get_verified_majority_value(sorted_series, num_obs)` (`helpers.py:118-126`). -/
def verifiedMajority (E : Env) (sorted : List ℚ) : Option ℚ :=
  if isClose (E.mad sorted) 0 then
    let m := sorted.getD ((sorted.length - 1) / 2) 0
    if isClose m (sorted.headD 0) || isClose m (sorted.getLastD 0) then none else some m
  else none

/-- `np.isclose(alpha, DEFAULT_ALPHA)` for a float `alpha` (false on NaN and infinities). -/
def alphaIsDefault : PyFloat → Bool
  | .fin a => isClose a (5 / 100)
  | _ => false

/-- `get_critical(alpha, num_obs, max_outliers)` (`helpers.py:129-134`). -/
def getCritical (E : Env) (alpha : PyFloat) (numObs maxOutliers : Nat) : List PyFloat :=
  if alphaIsDefault alpha && decide (numObs ≤ E.criticalTable.length) then
    ((E.criticalTable.drop (E.criticalTable.length - numObs)).take maxOutliers).map .fin
  else (List.range maxOutliers).map fun x => E.esdValue (x + 1) alpha numObs

/-- `normalize(values)` (`helpers.py:249-256`). -/
def normalize (l : List ℚ) : List ℚ :=
  let lo := npMin l
  let hi := npMax l
  if lo ≠ hi then l.map fun v => (v - lo) / (hi - lo) else l

/-- `smooth_spikes(data)` (`helpers.py:259-265`); `std + 1e-8` is positive, and pandas' linear
interpolation with `limit_direction='both'` extends the end values. -/
def smoothSpikes (E : Env) (l : List ℚ) : List ℚ :=
  let std := E.std l + 1 / 100000000
  let mean := npMean l
  let holes : List (Option ℚ) := l.map fun x => if 3 ≤ |x - mean| / std then none else some x
  holes.zipIdx.map fun x => x.1.getD (npInterp (obsKnots holes) (x.2 : Nat))

/-- first differences -/
def diffs : List ℚ → List ℚ
  | [] => []
  | [_] => []
  | a :: b :: t => (b - a) :: diffs (b :: t)

/-- `get_delta(delta, values)` (`helpers.py:268-271`). -/
def getDelta (delta : Nat) (values : List ℚ) : Except PyErr (List ℚ) :=
  let d := diffs values
  match d[delta]? with
  | none => .error .indexError
  | some x => .ok (List.replicate (delta + 1) x ++ d.drop delta)

/-- the loop of `reverse_delta` -/
def revDeltaLoop : List ℚ → ℚ → List ℚ
  | [], _ => []
  | d :: t, acc => (acc + d) :: revDeltaLoop t (acc + d)

/-- `reverse_delta(first_value, delta, d_values)` (`helpers.py:274-278`); `rd_values[-1]` is an IndexError
for `delta = 0` and nonempty input. -/
def reverseDelta (first : ℚ) (delta : Nat) (d : List ℚ) : Except PyErr (List ℚ) :=
  if delta = 0 ∧ d ≠ [] then .error .indexError
  else .ok (List.replicate delta first ++ revDeltaLoop (d.drop delta) first)

end Verif
