import Verif.Uni.Helpers
import Verif.Uni.Kernel

/-!
# Period detection

Model of `univariate/period/{period_detect,simple,spectrum}.py` and of
`model/series_compete_processor.py:21-31`.
-/

namespace Verif

/-- `MIN_PERIOD = 4` (`util/fields.py:149`). -/
def minPeriod : Nat := 4

/-! ## SimpleDetector (`period/simple.py`) -/

/-- `get_period_config` / `get_period_detrend_config` (70-83). -/
def periodConfig (period : Nat) (detrend : Bool) : ℚ :=
  if period ≤ 24 then 35 / 100
  else if period ≤ 168 then (if detrend then 65 / 100 else 15 / 100)
  else (if detrend then 7 / 10 else 1 / 10)

/-- `check_period` (59-67); callers exclude a variance close to 0. -/
def checkPeriod (E : Env) (values : List ℚ) (period : Nat) (detrend : Bool) : Bool :=
  let mse := (gcv (values.map E.f32) period).1
  let m := if isClose mse 0 then 1 else 1 - mse / npVar values
  decide (periodConfig period detrend < m)

/-- `is_valid_period` (43-56). -/
def isValidPeriod (E : Env) (values : List ℚ) (period : Nat) : Bool :=
  let normed := normalize values
  let removed := smoothSpikes E normed
  if isClose (npVar removed) 0 then false
  else if checkPeriod E removed period false then true
  else
    let trend := medianFilter E.f32 normed period true
    let detrended := smoothSpikes E (List.zipWith (· - ·) normed trend)
    let detrended := removeAnomalyInBucket E.f32 E.rnd detrended period
    if isClose (npVar detrended) 0 then false
    else checkPeriod E detrended period true

/-- `guess_period` (86-99). -/
def guessPeriod (g : Granularity) (interval : Nat) : List Nat :=
  let i := if interval = 0 then 1 else interval
  match g with
  | .yearly | .none => []
  | .daily => [7]
  | .hourly => [168 / i, 24 / i]
  | .minutely => [1440 * 7 / i, 1440 / i, 1440 * 2 / i]
  | .weekly => [12, 4]
  | .monthly => [12]
  | .secondly => [86400 * 7 / i, 86400 / i, 86400 * 2 / i]
  | .microsecond => [1000]

/-- `standard_period` (102-114); KeyError for `microsecond`, which is not in the table. -/
def standardPeriod (g : Granularity) (interval : Nat) : Except PyErr Nat :=
  let i := if interval = 0 then 1 else interval
  match g with
  | .daily => .ok 7
  | .hourly => .ok (168 / i)
  | .minutely => .ok (1440 * 7 / i)
  | .weekly | .monthly => .ok 12
  | .secondly => .ok (86400 * 7 / i)
  | .yearly | .none => .ok 0
  | .microsecond => .error .keyError

/-- `verify_period` (23-40). -/
def simpleDetect (E : Env) (values : List ℚ) (g : Granularity) (interval : Nat) :
    Except PyErr (Option Nat) :=
  match (guessPeriod g interval).find? fun p =>
      !(decide (values.length ≤ p * 2) || decide (p < minPeriod)) && isValidPeriod E values p with
  | none => .ok none
  | some verified => do
    let std ← standardPeriod g interval
    if values.length ≤ std * 2 ∨ std % verified ≠ 0 then pure (some verified) else pure (some std)

/-! ## SpectrumDetector (`period/spectrum.py`) -/

/-- position of the first maximum (`argmax`) -/
def argmaxLoop : List ℚ → Nat → Nat → ℚ → Nat
  | [], _, best, _ => best
  | x :: t, i, best, v => if v < x then argmaxLoop t (i + 1) i x else argmaxLoop t (i + 1) best v

def argmax (l : List ℚ) : Nat := argmaxLoop l.tail 1 0 (l.headD 0)

/-- The `while True` loop of `correlogram_detector` (131-139). `none`: out of fuel. -/
def correlogramLoop (conf : List ℚ) (maxPeriod : Nat) : Nat → List ℚ → Option (List Nat)
  | 0, _ => none
  | fuel + 1, acf =>
    let i := argmax acf
    let a := acf.getD i 0
    let ub := conf.getD i 0 - a
    if a < ub ∨ a < 1 / 10 then some []
    else
      (correlogramLoop conf maxPeriod fuel (acf.set i 0)).map fun l =>
        if minPeriod < i + 1 ∧ i + 1 < maxPeriod then (i + 1) :: l else l

/-- `int(min(len(data) / 3.0, 2880 * 2))` (124). -/
def maxPeriodOf (n : Nat) : Nat := min (n / 3) 5760

/-- `correlogram_detector(data)` (122-140). An `acf` with no lag would make `argmax` raise ValueError. -/
def correlogramDetector (E : Env) (data : List ℚ) : Except PyErr (List Nat) :=
  let mp := maxPeriodOf data.length
  let a := E.acf data mp
  if a.length = 0 then .error .valueError
  else .ok ((correlogramLoop (a.map (·.2)) mp (a.length + 1) (a.map (·.1))).getD [])

/-- `fit_seasons` (69-103) with `trend_type='spline'`, `period=None`, `min_ev=0.20`,
`detector_type='correlogram'`: the seasons, `none` if there are none. -/
def fitSeasons (E : Env) (data : List ℚ) : Except PyErr (Option (List ℚ)) := do
  let data := smoothSpikes E data
  let trend ← E.fitTrend data none
  let data := List.zipWith (· - ·) data trend
  let var := npVar data
  if isClose var 0 then pure none
  else
    let periods ← correlogramDetector E data
    if periods.length = 0 then pure none
    else match maxGcv (data.map E.f32) periods with
      | none => pure none
      | some (mse, seasons) =>
        if isClose mse 0 ∨ 20 / 100 ≤ 1 - mse / var then pure (some seasons) else pure none

/-- `calculate_period` (42-59). `cycles = len(series) / period + 1`. -/
def calculatePeriod (E : Env) (series : List ℚ) : Except PyErr Nat :=
  if series.length < 12 then .ok 0
  else do
    match ← fitSeasons E series with
    | none => pure 0
    | some seasons =>
      if seasons.length = 0 then pure 0
      else if (series.length : ℚ) / seasons.length + 1 ≤ 3 then pure 0
      else pure seasons.length

/-- `series[0::step]` -/
def everyNth (step : Nat) (l : List ℚ) : List ℚ :=
  (l.zipIdx.filter fun x => x.2 % step == 0).map (·.1)

/-- The loop of `SpectrumDetector.detect` (31-39); `vp` is `verified_period`. `none`: out of fuel. -/
def verifyLoop (E : Env) : Nat → List ℚ → Nat → Nat → Except PyErr (Option Nat)
  | 0, _, _, _ => .ok none
  | fuel + 1, series, period, vp =>
    if vp = 0 then .ok (some period)
    else do
      let series := everyNth vp series
      let vp ← calculatePeriod E series
      verifyLoop E fuel series (if vp ≠ 0 then period * vp else period) vp

/-- `SpectrumDetector.detect` (15-39). -/
def spectrumDetect (E : Env) (series : List ℚ) : Except PyErr Nat :=
  if series.length < 12 then .error .valueError
  else do
    let s := normalize series
    let p ← calculatePeriod E s
    if p = 0 then pure 0
    else
      match ← verifyLoop E (s.length + 2) s p p with
      | some q => pure q
      | none => pure 0

/-! ## period_detection -/

/-- `period_detection` (`period/period_detect.py:10-18`): the period and its source (0 = simple,
1 = spectrum). -/
def periodDetection (E : Env) (series : List ℚ) (g : Granularity) (interval : Nat) (skipSimple : Bool) :
    Except PyErr (Nat × Nat) := do
  let simple ← if skipSimple then pure none else simpleDetect E series g interval
  match simple with
  | some p => if p ≠ 0 then pure (p, 0) else do
      let q ← spectrumDetect E series
      pure (q, 1)
  | none => do
      let q ← spectrumDetect E series
      pure (q, 1)

end Verif
