import Verif.Uni.Detect

/-!
# The three detection models and the second pass on differences

Model of `univariate/model/dynamic_threshold.py`, `seasonal_series.py`, `spectral_residual_model.py`,
`detectors/spectral_residual.py`, `util/stl_helpers.py` and the free functions of `model/detect_model.py`.
-/

namespace Verif

/-- One row of the `results` frame: columns Value, expected_value, Trend (if requested), Score (SR only),
is_anomaly, is_positive_anomaly, is_negative_anomaly. -/
structure Row where
  value : ℚ
  expected : ℚ
  trend : Option ℚ
  score : Option ℚ
  anom : Bool
  pos : Bool
  neg : Bool
  deriving DecidableEq

/-- `modify_anomaly_status(x)` (`dynamic_threshold.py:63-69`, `seasonal_series.py:120-126`,
`spectral_residual_model.py:72-78`): `(is_positive, is_negative)`. -/
def modifyStatus (anom : Bool) (expected value : ℚ) : Bool × Bool :=
  if !anom then (false, false)
  else if value < expected then (false, true)
  else (true, false)

/-- Assemble the frame: `expected_values.join(anomalies, how='left')` and `fillna(False)`. The right frame has
unique labels (shown for the results of `detectFuse`), so the join keeps one row per point; points without a
partner get `False`. -/
def assemble (values expected : List ℚ) (trend : Option (List ℚ)) (score : Option (List ℚ))
    (anoms : List Nat) : List Row :=
  (List.range values.length).map fun i =>
    let v := values.getD i 0
    let e := expected.getD i 0
    let a := anoms.contains i
    let st := modifyStatus a e v
    { value := v, expected := e, trend := trend.map (·.getD i 0), score := score.map (·.getD i 0)
      anom := a, pos := st.1, neg := st.2 }

/-! ## Dynamic threshold -/

/-- `detect_anomaly` of `dynamic_threshold.py:47-60`. -/
def dtAnomalies (E : Env) (data : List ℚ) (alpha : PyFloat) (ratio : ℚ) (last : Bool) :
    Except PyErr (List Nat × ModelType) := do
  let sorted := sortedSeries E data
  let maxO := maxOutliersOf data.length ratio
  let maj := verifiedMajority E (sorted.map (·.2))
  let eu ← esdDetect E sorted maxO maj alpha .upper last
  let el ← esdDetect E sorted maxO maj alpha .lower last
  let an := detectFuse data.length maxO [eu, zscoreDetect E sorted maxO .upper]
    [el, zscoreDetect E sorted maxO .lower]
  pure (an, if maj.isSome then .DynamicThresholdMad else .DynamicThreshold)

/-- the trend without the flagged points (`dynamic_threshold.py:23-26`) -/
def dtTrend (E : Env) (series trend : List ℚ) (an : List Nat) : Except PyErr (List ℚ) :=
  if an.length ≠ 0 then do
    let filled ← interp (series.zipIdx.map fun x => if an.contains x.2 then none else some x.1)
    trendDetection E filled none
  else .ok trend

/-- `dynamic_threshold_detection` (`dynamic_threshold.py:17-44`). Assigning a column of the wrong length is
a ValueError. -/
def dtDetection (E : Env) (series trend : List ℚ) (alpha : PyFloat) (ratio : ℚ) (needTrend last : Bool) :
    Except PyErr (List Row × ModelType) := do
  let (an, model) ← dtAnomalies E (normalize series) alpha ratio last
  let trend ← dtTrend E series trend an
  if trend.length ≠ series.length then .error .valueError
  else pure (assemble series trend (if needTrend then some trend else none) none an, model)

/-! ## Seasonal series -/

/-- `outlier_index[np.where(np.in1d(period_bins, invalid_period_bin))]` of `get_outlier`
(`util/stl_helpers.py:11-23`). -/
def getOutlier (E : Env) (values : List ℚ) (period : Nat) : List Nat :=
  let mean := npMean values
  let std := E.std values
  if std = 0 then []
  else
    let out := ((values.zipIdx).filter fun x => decide (3 ≤ |x.1 - mean| / std)).map (·.2)
    let limit : Nat := (((values.length : ℚ) / period) / 2).floor.toNat
    out.filter fun i => decide ((out.filter fun k => k % period == i % period).length ≤ limit)

/-- forward fill, then backward fill (`stl_helpers.py:34`) -/
def ffill : Option ℚ → List (Option ℚ) → List (Option ℚ)
  | _, [] => []
  | prev, x :: t => let y := x.or prev; y :: ffill y t

def bfill (l : List (Option ℚ)) : List (Option ℚ) := (ffill none l.reverse).reverse

/-- `de_outlier_stl` (`util/stl_helpers.py:26-38`). -/
def deOutlierStl (E : Env) (adjust : Bool) (series : List ℚ) (period : Nat) (log : Bool) : Except PyErr Stl := do
  let d ← E.stl adjust series period log
  let detr := List.zipWith (· + ·) d.remainder d.seasonal
  let out := getOutlier E detr period
  if out.length = 0 then pure d
  else
    let holes := detr.zipIdx.map fun x => if out.contains x.2 then none else some x.1
    let filled := (bfill (ffill none holes)).map (·.getD 0)
    E.stl adjust (List.zipWith (· + ·) filled d.trend) period log

/-- `np.mean(np.abs(remainder / input_series))` (`seasonal_series.py:46, 51`) on a pandas Series, which skips
NaN: terms 0/0 are dropped, the result is infinite if some remaining value is 0 and NaN if nothing remains. -/
def mape (remainder series : List ℚ) : PyFloat :=
  let z := (remainder.zip series).filter fun x => !(decide (x.1 = 0) && decide (x.2 = 0))
  if z.length = 0 then .nan
  else if z.any (fun x => decide (x.2 = 0)) then .pinf
  else .fin (npMean (z.map fun x => |x.1 / x.2|))

/-- `detect_anomaly` of `seasonal_series.py:98-117`. -/
def tsAnomalies (E : Env) (data remainder : List ℚ) (alpha : PyFloat) (ratio : ℚ) (last : Bool) :
    Except PyErr (List Nat × ModelType) := do
  let sorted := sortedSeries E data
  let sortedR := sortedSeries E remainder
  let maxO := maxOutliersOf data.length ratio
  let maj := verifiedMajority E (sorted.map (·.2))
  let majR := verifiedMajority E (sortedR.map (·.2))
  let eu ← esdDetect E sorted maxO maj alpha .upper last
  let ru ← esdDetect E sortedR maxO majR alpha .upper last
  let el ← esdDetect E sorted maxO maj alpha .lower last
  let rl ← esdDetect E sortedR maxO majR alpha .lower last
  let an := detectFuse data.length maxO [eu, zscoreDetect E sorted maxO .upper, ru]
    [el, zscoreDetect E sorted maxO .lower, rl]
  pure (an, if maj.isSome || majR.isSome then .AnomalyDetectorMad else .AnomalyDetector)

/-- the decomposition of `detect_ts` (`seasonal_series.py:42-53`): additive, or logarithmic if that fits much better -/
def tsDecompose (E : Env) (series : List ℚ) (period : Nat) (last : Bool) : Except PyErr Stl := do
  let d0 ← deOutlierStl E last series period false
  if (PyFloat.fin (1 / 10)).lt (mape d0.remainder series) then
    (deOutlierStl E last series period true).map fun dl =>
      if (mape dl.remainder series).lt (.fin (5 / 100)) then dl else d0
  else .ok d0

/-- the trend without the flagged points (`seasonal_series.py:68-73`). `decompose_trend[-nan_window:]` is the whole
vector when `nan_window` is 0. -/
def tsTrend (n period : Nat) (an : List Nat) (trend : List ℚ) : Except PyErr (List ℚ) :=
  if an.length ≠ 0 then
    let nanWindow := period / 2
    let close := an.filter fun i => decide (n - nanWindow ≤ i)
    let wipe := decide ((nanWindow : ℚ) / 2 ≤ close.length)
    let from_ := if nanWindow = 0 then 0 else n - nanWindow
    interp (trend.zipIdx.map fun x =>
      if an.contains x.2 || (wipe && decide (from_ ≤ x.2)) then none else some x.1)
  else .ok trend

/-- `detect_ts` (`seasonal_series.py:22-95`), called by `seasonal_series_detection` (17-19). -/
def tsDetection (E : Env) (series : List ℚ) (period : Nat) (ratio : ℚ) (alpha : PyFloat)
    (needTrend last : Bool) : Except PyErr (List Row × ModelType) :=
  let n := series.length
  if 49 / 100 < ratio then .error .valueError                                   -- 23-28
  else if n = 0 then .error .zeroDivision                                       -- 32
  else if n < period * 2 + 1 then .error .valueError                            -- 39-40
  else do
    let d ← tsDecompose E series period last                                    -- 42-53
    let deSeason := List.zipWith (· - ·) series d.seasonal                      -- 58-59
    let rem := List.zipWith (· - ·) deSeason d.trend
    let (an, model) ← tsAnomalies E (normalize deSeason) (normalize rem) alpha
      (max ratio (ddiv 1 n)) last                                               -- 32-34, 61-66
    let trend ← tsTrend n period an d.trend                                     -- 68-73
    pure (assemble series (List.zipWith (· + ·) trend d.seasonal)               -- 76
      (if needTrend then some trend else none) none an, model)

/-! ## Spectral residual -/

/-- `predict_next` (`detectors/spectral_residual.py:80-99`). -/
def predictNext (values : List ℚ) : Except PyErr ℚ :=
  let n := values.length
  if n ≤ 1 then .error .valueError
  else
    let vLast := values.getLastD 0
    let slopes := (values.dropLast.zipIdx).map fun x => (vLast - x.1) / ((n : ℚ) - 1 - x.2)
    .ok (npMedian values + slopes.sum * (1 / 2) * (n + 1) / (n - 1))

/-- the `while` loop 123-127: the last values inside the range, right-aligned in `value_ahead` -/
def aheadLoop (lo hi : ℚ) : List ℚ → Nat → List ℚ → List ℚ
  | _, 0, acc => acc
  | [], _, acc => acc
  | v :: t, k + 1, acc =>
    if lo ≤ v ∧ v ≤ hi then aheadLoop lo hi t k (acc.set k v) else aheadLoop lo hi t (k + 1) acc

/-- `extend_series` (`detectors/spectral_residual.py:102-131`) with `extend_num = look_ahead = 5`. -/
def extendSeries (E : Env) (values : List ℚ) (removeOutlier : Bool) : Except PyErr (List ℚ) := do
  let ahead :=
    if removeOutlier then
      let q75 := E.quantile values (3 / 4)
      let q50 := E.quantile values (1 / 2)
      let q25 := E.quantile values (1 / 4)
      let hi := q75 + 3 / 2 * (q75 - q25)
      let lo := q25 - 3 / 2 * (q75 - q25)
      aheadLoop lo hi values.reverse 6 (List.replicate 6 q50)
    else (values.drop (values.length - 7)).dropLast                             -- values[-7:-1]
  let p ← predictNext ahead
  pure (values ++ List.replicate 5 p)

/-- `generate_spectral_score` (`detectors/spectral_residual.py:58-64`). -/
def spectralScore (E : Env) (series : List ℚ) (removeOutlier : Bool) : Except PyErr (List ℚ) := do
  let ext ← extendSeries E series removeOutlier
  let mag := (E.srTransform ext).take series.length
  let ave := (averageFilter mag 100 true).map fun x => if isClose x EPS then EPS else x
  pure (List.zipWith (fun m a => |m - a| / a) mag ave)

/-- `SpectralResidual._detect` (`detectors/spectral_residual.py:20-55`): the scores and the model id. With
`std = 0` the z-score is NaN or infinite and the comparison `< 1.5` false. -/
def srScores (E : Env) (series : List ℚ) (maxOutliers : Nat) (last : Bool) :
    Except PyErr (List ℚ × ModelType) := do
  if last then
    let n := series.length
    let sc ← spectralScore E series false
    let maxDrop := min (max maxOutliers (((n : ℚ) / 10).floor.toNat)) (((n : ℚ) * (45 / 100)).floor.toNat)
    let cut := ((List.range n).find? fun i => decide (n - maxDrop ≤ i) && decide (3 / 2 ≤ sc.getD i 0)).getD (n - 1)
    let filtered := series.take cut ++ [series.getLastD 0]                       -- 37-39
    let sc := sc.zipIdx.map fun x =>                                             -- 42
      if filtered.length - 1 ≤ x.2 ∧ x.2 < n - 1 then 2 else x.1
    let fsc ← spectralScore E filtered false                                     -- 43
    let std := E.std series
    let small := decide (std ≠ 0) && decide (|series.getLastD 0 - npMean series| / std < 3 / 2)
    let lastScore := if small then 0 else fsc.getLastD 0                         -- 44-47
    pure (sc.set (n - 1) lastScore, if small then .SpectralResidual_ZScore else .SpectralResidual)
  else
    let sc ← spectralScore E series true                                         -- 49
    pure (sc, .SpectralResidual)

/-- expected values of `spectral_residual_detection`, ENTIRE mode (`spectral_residual_model.py:33-46`) -/
def srExpectedEntire (series : List ℚ) (skel : List Bool) : List ℚ :=
  let raw := (List.range series.length).map fun i =>
    if skel.getD i false then series.getD i 0
    else
      let lo := i / 2
      let vs := ((series.zip skel).take (i + 1)).drop lo
      let cnt := (vs.filter (·.2)).length
      if cnt = 0 then npMean (series.take (i + 1))
      else ((vs.map fun x => if x.2 then x.1 else 0).sum) / cnt
  averageFilter raw 5 false

/-- expected values in LATEST mode (29-31): only the last entry differs from the data. `none` means that
there is no skeleton point, so that the last entry is the mean of nothing, NaN. -/
def srExpectedLast (series : List ℚ) (skel : List Bool) : Option (List ℚ) :=
  let pts := ((series.zip skel).filter (·.2)).map (·.1)
  let half := pts.drop (pts.length / 2)
  if half.length = 0 then none else some (series.set (series.length - 1) (npMean half))

/-- the case of a NaN expected value for the last point: `fillna(False)` (67) turns it into 0, and the
comparison in `modify_anomaly_status` with NaN is false, so an anomaly there counts as positive -/
def nanLastRow (r : Row) : Row :=
  { r with pos := r.anom, neg := false }

/-- the flagged points (`spectral_residual_model.py:21-23, 57-59`, `spectral_residual.py:53`): scores at or above the
threshold, best scores first, at most `maxO` -/
def srFlagged (E : Env) (threshold : PyFloat) (n : Nat) (sc : List ℚ) (maxO : Nat) : List Nat :=
  let flagged := (List.range n).filter fun i => threshold.le (.fin (sc.getD i 0))
  let order := E.argsortDesc (flagged.map fun i => sc.getD i 0)
  (order.take maxO).map fun k => flagged.getD k 0

/-- the optional trend column (`spectral_residual_model.py:50-51`); a column of the wrong length is a ValueError -/
def srTrend (needTrend : Bool) (n : Nat) (t : Except PyErr (List ℚ)) : Except PyErr (Option (List ℚ)) :=
  if needTrend then
    match t with
    | .ok t => if t.length ≠ n then .error .valueError else .ok (some t)
    | .error e => .error e
  else .ok none

/-- `spectral_residual_detection` (`spectral_residual_model.py:13-69`). -/
def srDetection (E : Env) (series : List ℚ) (threshold : PyFloat) (ratio : ℚ) (needTrend last : Bool) :
    Except PyErr (List Row × ModelType) := do
  let n := series.length
  let maxO := max ((dmul n ratio).floor.toNat) 1                              -- 15
  let (sc, model) ← srScores E series maxO last                                  -- 16-17
  let an := srFlagged E threshold n sc maxO                                      -- 21-23, 57-59
  let skel := sc.map fun s => decide (s ≤ 1)                                     -- 26
  let score := sc.map fun s => npClip (s - (35 / 10) / (15 - 35 / 10)) 0 1         -- 54-55
  match (if last then srExpectedLast series skel else some (srExpectedEntire series skel)) with
  | some expected =>
    let trend ← srTrend needTrend n (trendDetection E expected none)             -- 50-51
    pure (assemble series expected trend (some score) an, model)
  | none =>
    let expected := series.set (n - 1) 0
    let trend ← srTrend needTrend n (E.fitTrendNaN expected)
    pure ((assemble series expected trend (some score) an).modify (n - 1) nanLastRow, model)

/-! ## Second pass on differences -/

/-- `should_trigger_sr` (`detect_model.py:27-32`). -/
def shouldTriggerSr (E : Env) (g : Granularity) (interval : Int) (values : List ℚ) : Bool :=
  let hasMajority := decide (|E.mad values| < EPS)
  let proper := (decide (g = .minutely) && decide (interval < 60))
    || (decide (g = .secondly) && decide (interval < 60 * 60))
  proper && !hasMajority

/-- the loop of `should_include_delta` (`detect_model.py:34-50`); `none` is delta = -1 -/
def deltaLoop (E : Env) : Nat → Nat → List ℚ → Except PyErr (Option (Nat × List ℚ))
  | 0, _, _ => .ok none
  | rem + 1, delta, vs =>
    if E.stationary vs then .ok (some (delta, vs))
    else do
      let vs ← getDelta delta vs
      deltaLoop E rem (delta + 1) vs

/-- `should_include_delta(values, max_delta=2)`. -/
def shouldIncludeDelta (E : Env) (values : List ℚ) : Except PyErr (Option (Nat × List ℚ)) :=
  deltaLoop E 3 0 values

/-- `correct_expectedValue_in_delta` (`detect_model.py:53-61`) at one position. -/
def correctedAt (ori new : List ℚ) (p : Nat) : ℚ :=
  if p = 0 then ori.getD 0 0 else ori.getD (p - 1) 0 + new.getD p 0

/-- a row added by the second pass: corrected expected value and trend (85-87), the original value (89) and
the direction of `correct_anomaly_direction` (63-70, 90-92) -/
def mergedRow (r d : Row) (e : ℚ) (t : Option ℚ) : Row :=
  { value := r.value, expected := e, trend := t, score := d.score, anom := true
    pos := decide (e < r.value), neg := decide (r.value ≤ e) }

/-- second-order results are summed up once (`detect_model.py:54-55`, called from 85-87) -/
def undelta (delta : Nat) (vs l : List ℚ) : Except PyErr (List ℚ) :=
  if delta = 2 then reverseDelta (vs.getD 1 0 - vs.getD 0 0) 2 l else .ok l

/-- the merged frame (`detect_model.py:84-94`): points flagged only by the second pass are taken over -/
def mergeRows (rows drows : List Row) (newE newT : List ℚ) : List Row :=
  let oriE := rows.map (·.expected)
  let oriT := rows.map fun r => r.trend.getD 0
  (rows.zip drows).zipIdx.map fun x =>
    let r := x.1.1
    let d := x.1.2
    if !r.anom && d.anom then
      mergedRow r d (correctedAt oriE newE x.2)
        (if r.trend.isSome then some (correctedAt oriT newT x.2) else none)
    else r

/-- `merge_with_delta(results, func, args)` (`detect_model.py:72-95`); `run series ratio` is
`func(**args)` on the differenced series with the adjusted ratio. -/
def mergeWithDelta (E : Env) (rows : List Row) (series : List ℚ) (ratio : ℚ)
    (run : List ℚ → ℚ → Except PyErr (List Row × ModelType)) : Except PyErr (List Row) := do
  match ← shouldIncludeDelta E series with
  | none => pure rows                                                     -- 73-74
  | some (0, _) => pure rows
  | some (delta, ds) =>
    let n := ds.length
    let maxO := max ((dmul n ratio).floor.toNat) 1                     -- 78
    let ori := (rows.filter (·.anom)).length                              -- 79
    if ori < maxO then do                                                 -- 80-83
      let (drows, _) ← run ds (ddiv ((maxO - ori : Nat) : ℚ) n)
      let vs := rows.map (·.value)
      let newE ← undelta delta vs (drows.map (·.expected))
      let newT ← undelta delta vs (drows.map fun r => r.trend.getD 0)
      pure (mergeRows rows drows newE newT)                               -- 84-94
    else pure rows

end Verif
