import Verif.Uni.Models
import Verif.Uni.DateUtils

/-!
# Functions that `predict` does not reach

`model/hbos_detection.py`, `detectors/dynamic_filter.py`, `is_straight` of `_anomaly_kernel_cython.pyx`, `leastsq`,
`get_pattern_by_second` and `get_period_pattern` of `util/helpers.py`, `common/time_util.py`.
-/

namespace Verif

/-! ### period patterns -/

/-- the constants of `fields.py:107-114`, in seconds -/
def YEAR_SECOND : ℚ := 12 * 4 * 7 * 24 * 60 * 60
def MONTH_SECOND : ℚ := 4 * 7 * 24 * 60 * 60
def WEEK_SECOND : ℚ := 7 * 24 * 60 * 60
def DAY_SECOND : ℚ := 24 * 60 * 60
def HOUR_SECOND : ℚ := 60 * 60
def MINUTE_SECOND : ℚ := 60
def MICRO_SECOND : ℚ := roundDouble (1 / 1000)

/-- `get_pattern_by_second` (`helpers.py:166-184`) -/
def patternBySecond (second : ℚ) : Granularity :=
  if YEAR_SECOND ≤ second then .yearly
  else if MONTH_SECOND ≤ second then .monthly
  else if WEEK_SECOND ≤ second then .weekly
  else if DAY_SECOND ≤ second then .daily
  else if HOUR_SECOND ≤ second then .hourly
  else if MINUTE_SECOND ≤ second then .minutely
  else if 1 ≤ second then .secondly
  else if MICRO_SECOND ≤ second then .microsecond
  else .none

/-- `get_second_by_granularity(granularity, custom_interval) * period` (`helpers.py:137-159, 190-191`): integers, except that the
products with `MICRO_SECOND` are doubles. Integers beyond the range of doubles (OverflowError) are not treated. -/
def periodSeconds (period : Int) (g : Granularity) (interval : Int) : ℚ :=
  match g with
  | .yearly => YEAR_SECOND * interval * period
  | .monthly => MONTH_SECOND * interval * period
  | .weekly => WEEK_SECOND * interval * period
  | .daily => DAY_SECOND * interval * period
  | .hourly => HOUR_SECOND * interval * period
  | .minutely => MINUTE_SECOND * interval * period
  | .secondly => 1 * interval * period
  | .microsecond => dmul (dmul MICRO_SECOND (roundSigned interval)) (roundSigned period)
  | .none => 0

/-- `get_period_pattern(period, granularity, custom_interval)` (`helpers.py:187-191`) -/
def periodPattern (period : Int) (g : Granularity) (interval : Option Int) : Granularity :=
  patternBySecond (periodSeconds period g (interval.getD 1))

/-! ### least squares -/

/-- a quotient of numpy scalars -/
def lsqDiv (a b : ℚ) : PyFloat := if b = 0 then (if a = 0 then .nan else if 0 < a then .pinf else .ninf) else .fin (a / b)

/-- `leastsq(x, y)` (`helpers.py:24-34`) for lists of the same length -/
def leastsq (x y : List ℚ) : PyFloat × PyFloat :=
  let n : ℚ := x.length
  let sx := x.sum
  let sy := y.sum
  let sxx := (List.zipWith (· * ·) x x).sum
  let sxy := (List.zipWith (· * ·) x y).sum
  (lsqDiv (n * sxy - sx * sy) (n * sxx - sx * sx), lsqDiv (sxx * sy - sx * sxy) (n * sxx - sx * sx))

/-! ### straightness -/

/-- `l[i:j]` for `0 ≤ i` and any integer `j` -/
def sliceInt (l : List ℚ) (i : Nat) (j : Int) : List ℚ :=
  (l.take (if j < 0 then (j + l.length).toNat else j.toNat)).drop i

/-- the test of `is_straight` at position `i` (`_anomaly_kernel_cython.pyx:333`); the variance of no values is NaN -/
def flatAt (l : List ℚ) (step : Int) (i : Nat) : Bool :=
  let w := sliceInt l i (min l.length (i + step))
  w ≠ [] && decide (|npVar w| - 0 < 1 / 100000000)

/-- `is_straight(values, step)` (`_anomaly_kernel_cython.pyx:328-337`) -/
def isStraight (l : List ℚ) (step : Int) : Bool :=
  let cnt := ((List.range l.length).filter fun i => flatAt l step i).length
  decide (max 1 (l.length / 2) ≤ cnt)

/-! ### the threshold detector -/

/-- `DynamicThreshold(series, max_outliers, threshold).detect(direction, last_value)` (`detectors/dynamic_filter.py:10-34`) on a sorted series
with the labels `0, 1, …` in some order. `last` tells whether `last_value` is given. The greatest label of an empty series is a ValueError. -/
def thresholdDetect (E : Env) (sorted : List (Nat × ℚ)) (maxOutliers : Nat) (threshold : PyFloat) (dir : Direction) (last : Bool) :
    Except PyErr (List Nat) :=
  let dd := tailView sorted dir
  if last = true ∧ dd = [] then .error .valueError
  else
    dynamicThreshold E.f32 E.gaussC E.std (dd.map (·.2)) (dd.map (·.1)) maxOutliers threshold (dir = .upper)
      (if last then some ((dd.map (·.1)).idxOf (((dd.map (·.1)).max?).getD 0)) else none)

/-! ### histogram-based outlier scores -/

/-- one row of the result of `hbos_detection`. The columns is_positive_anomaly and is_negative_anomaly do not always exist. -/
structure HbosRow where
  value : ℚ
  expected : ℚ
  trend : Option ℚ
  score : Option ℚ
  anom : Bool
  signs : Option (Bool × Bool)
  deriving DecidableEq

/-- `ModelType.HbosSeasonal`, `ModelType.HbosNonseasonal` -/
inductive HbosModel where
  | seasonal | nonseasonal
  deriving DecidableEq

/-- `model.fit(values); model.predict_proba(values)[:, 1]` of `pyod.models.hbos.HBOS(contamination)`; the scores are finite -/
abbrev Hbos := PyFloat → List ℚ → Except PyErr (List ℚ)

/-- `scores > threshold` -/
def above (scores : List ℚ) (threshold : PyFloat) : List Bool := scores.map fun s => threshold.lt (.fin s)

/-- the rows of `hbos_detection.py:66-76` and `98-113`: the signs are added only if something is flagged -/
def hbosRows (series expected : List ℚ) (trend : Option (List ℚ)) (score : Option (List ℚ)) (anom : List Bool) : List HbosRow :=
  (List.range series.length).map fun i =>
    let v := series.getD i 0
    let e := expected.getD i 0
    let a := anom.getD i false
    { value := v, expected := e, trend := trend.map (·.getD i 0), score := score.map (·.getD i 0), anom := a
      signs := if anom.any id then some (modifyStatus a e v) else none }

/-- `outlier_fraction` raised to one point (`hbos_detection.py:23-25, 86-88`); a comparison with NaN is false -/
def hbosFraction (fraction : PyFloat) (n : Nat) : PyFloat :=
  if fraction.lt (.fin (ddiv 1 n)) then .fin (ddiv 1 n) else fraction

/-- `hbos_detection_seasonal` (`hbos_detection.py:13-80`) on a numpy array (a pandas Series has no `reshape`). -/
def hbosSeasonal (E : Env) (hbos : Hbos) (series : List ℚ) (period : Nat) (fraction threshold : PyFloat) (needTrend last : Bool) :
    Except PyErr (List HbosRow) :=
  let n := series.length
  if (PyFloat.fin (49 / 100)).lt fraction then .error .valueError                        -- 14-19
  else if n = 0 then .error .zeroDivision                                                -- 23
  else if n < period * 2 + 1 then .error .valueError                                     -- 27-28
  else do
    let d ← tsDecompose E series period last                                             -- 30-41
    let values := normalize (List.zipWith (· - ·) (List.zipWith (· - ·) series d.trend) d.seasonal)
    let scores ← hbos (hbosFraction fraction n) values                                   -- 48-50
    let anom := above scores threshold                                                   -- 51
    let trend ←
      if anom.any id && decide ((anom.filter id).length < n) then                        -- 53-55
        interp (d.trend.zipIdx.map fun x => if anom.getD x.2 false then none else some x.1)
      else pure d.trend
    pure (hbosRows series (List.zipWith (· + ·) trend d.seasonal) (if needTrend then some trend else none) none anom)

/-- `hbos_detection_nonseasonal` (`hbos_detection.py:83-115`). The test `np.sum(isAnomaly) < np.sum(isAnomaly)` (103) is false. -/
def hbosNonseasonal (E : Env) (hbos : Hbos) (series : List ℚ) (fraction threshold : PyFloat) (needTrend : Bool) :
    Except PyErr (List HbosRow) :=
  if series.length = 0 then .error .zeroDivision                                         -- 87
  else do
    let scores ← hbos (hbosFraction fraction series.length) series                       -- 91-95
    let anom := above scores threshold                                                   -- 96
    let trend ←
      if anom.any id && decide ((anom.filter id).length < (anom.filter id).length) then  -- 104-107
        interp (series.zipIdx.map fun x => if anom.getD x.2 false then none else some x.1) >>= fun l => trendDetection E l none
      else trendDetection E series none                                                  -- 109
    if trend.length ≠ series.length then .error .valueError
    else pure (hbosRows series trend (if needTrend then some trend else none)
      (some scores) anom)

/-- `hbos_detection` (`hbos_detection.py:118-127`) -/
def hbosDetection (E : Env) (hbos : Hbos) (series : List ℚ) (period : Nat) (threshold fraction : PyFloat) (needTrend last : Bool) :
    Except PyErr (List HbosRow × HbosModel) :=
  if 0 < period then (hbosSeasonal E hbos series period fraction threshold needTrend last).map fun r => (r, .seasonal)
  else (hbosNonseasonal E hbos series fraction threshold needTrend).map fun r => (r, .nonseasonal)

/-! ### `common/time_util.py` -/

/-- a Python datetime: the wall clock in microseconds since the year 1, and the offset from UTC in microseconds if it has a time zone -/
structure DateTime where
  wall : Int
  offset : Option Int
  deriving DecidableEq

/-- microseconds from the year 1 to the end of 9999 -/
def maxWall : Int := 3652059 * 86400 * 1000000

/-- `dt.astimezone(tz.UTC)` for an aware datetime -/
def toUtc (wall offset : Int) : Except PyErr Int :=
  if 0 ≤ wall - offset ∧ wall - offset < maxWall then .ok (wall - offset) else .error .overflowError

/-- `dateutil.parser.parse` and `datetime.strftime` -/
structure TimeLib where
  parse : String → Except PyErr DateTime
  strftime : String → Int → String

/-- microseconds from the year 1 to the year 1000 -/
def year1000 : Int := 364877 * 86400 * 1000000

def DT_FORMAT : String := "%Y-%m-%dT%H:%M:%SZ"
def DT_FORMAT_WITH_MICROSECOND : String := "%Y-%m-%dT%H:%M:%S.%fZ"

/-- `str_to_dt` (`time_util.py:13-27`) -/
def strToDt (L : TimeLib) (s : String) : Except PyErr DateTime := do
  let p ← L.parse s
  match p.offset with
  | none => pure p
  | some off =>
    let w ← toUtc p.wall off
    pure ⟨w, none⟩

/-- `dt_to_str` (`time_util.py:30-40`). A zone equal to `tz.UTC` has offset 0, so converting or not makes no difference. -/
def dtToStr (L : TimeLib) (dt : DateTime) (fmt : String := DT_FORMAT) : Except PyErr String :=
  match dt.offset with
  | none => .ok (L.strftime fmt dt.wall)
  | some off => (toUtc dt.wall off).map (L.strftime fmt)

/-- `dt_to_str_with_microsecond` (`time_util.py:43-44`) -/
def dtToStrMicro (L : TimeLib) (dt : DateTime) : Except PyErr String := dtToStr L dt DT_FORMAT_WITH_MICROSECOND

/-- Laws of the two library functions. A string written in one of the two formats is read back as a time in UTC, to the microsecond or to the
second. `strftime` does not pad the years before 1000. -/
structure TimeLib.WF (L : TimeLib) : Prop where
  parse_micro : ∀ w, year1000 ≤ w → w < maxWall → L.parse (L.strftime DT_FORMAT_WITH_MICROSECOND w) = .ok ⟨w, some 0⟩
  parse_second : ∀ w, year1000 ≤ w → w < maxWall → L.parse (L.strftime DT_FORMAT w) = .ok ⟨w - w % 1000000, some 0⟩

end Verif
