import Verif.Uni.Kernel
import Verif.Uni.Env
import Verif.Uni.CriticalTable

/-!
# Numerical routines of the code on top of third-party primitives

`Env` treats a few functions of the code as arbitrary: the decomposition wrappers of `util/r_stl.py`, `fit_trend` and
`guess_trended_period` of `util/helpers.py`, `spectral_residual_transform_core` and `calculate_esd_values` of
`_anomaly_kernel_cython.pyx`, the histogram ratio of `detect_model.py`, and the table of critical values. Here they are
given by definitions over a smaller set of third-party functions, `Lib`. `Lib.env` is the environment they make up.
-/

namespace Verif

/-- Third-party functions. -/
structure Lib where
  /-- the functions of `Env` that stay arbitrary; the fields redefined by `Lib.env` are not used -/
  rest : Env
  /-- `rstl.STL(data, np, "periodic", robust=True)` -/
  stlCore : List ℚ → Nat → Except PyErr Stl
  /-- outcome of the second decomposition of `stl_adjust_trend` (`r_stl.py:100`) when no point lies a whole period
  before the end, so that the appended value is NaN -/
  stlShort : List ℚ → Nat → Bool → Except PyErr Stl
  exp : ℚ → ℚ
  log : ℚ → ℚ
  /-- `seasonal.trend.aglet(filtered, window)` -/
  aglet : List ℚ → Nat → Except PyErr (List ℚ)
  /-- `seasonal.trend.mean_filter`, `line_filter`, `spline_filter` -/
  meanFilter : List ℚ → Nat → Except PyErr (List ℚ)
  lineFilter : List ℚ → Nat → Except PyErr (List ℚ)
  splineFilter : List ℚ → Nat → Except PyErr (List ℚ)
  /-- are all entries of the broad trend finite (they pass through C `float`s)? -/
  broadFinite : List ℚ → Bool
  /-- `seasonal.periodogram_peaks(data)`: period and score of every peak -/
  peaks : List ℚ → Except PyErr (Option (List (ℚ × ℚ)))
  /-- `np.fft.fft`, `np.fft.ifft`: real and imaginary parts -/
  fft : List ℚ → List (ℚ × ℚ)
  ifft : List (ℚ × ℚ) → List (ℚ × ℚ)
  /-- `pow(x, 1. / k)` -/
  root : ℚ → Nat → ℚ
  /-- `scipy.stats.t.ppf(p, df)` -/
  tppf : PyFloat → Nat → PyFloat
  /-- does `np.histogram(values, bins=20)` raise? -/
  histRaises : List ℚ → Bool

/-! ## `util/r_stl.py` -/

/-- the series `stl_log` takes the logarithm of (`r_stl.py:49-52`): shifted so that its least value is 1 unless it
is at least 1 already -/
def logShift (data : List ℚ) : List ℚ :=
  if npMin data < 1 then data.map fun x => x - npMin data + 1 else data

/-- `stl_log(data, np)` (`r_stl.py:36-73`); `min([])` is a ValueError. -/
def stlLog (L : Lib) (data : List ℚ) (p : Nat) : Except PyErr Stl :=
  if data.length = 0 then .error .valueError                                    -- 49
  else do
    let d := logShift data                                                      -- 49-52
    let r ← L.stlCore (d.map L.log) p                                           -- 54
    let trend := r.trend.map L.exp                                              -- 58
    let seasonal := List.zipWith (fun t s => L.exp (t + s) - L.exp t) r.trend r.seasonal   -- 59
    let remainder := List.zipWith (· - ·) (List.zipWith (· - ·) d trend) seasonal          -- 60
    pure { trend := if npMin data < 1 then trend.map fun x => x - 1 + npMin data else trend  -- 62-64
           seasonal := seasonal, remainder := remainder }

/-- `stl(data, np, log_transform)` (`r_stl.py:76-80`). -/
def stlPlain (L : Lib) (data : List ℚ) (p : Nat) (log : Bool) : Except PyErr Stl :=
  if log then stlLog L data p else L.stlCore data p

/-- `_data[-np::-np]` (`r_stl.py:97`) for `1 ≤ np ≤ len(data)`: every `np`-th value, backwards from `np` before the
end -/
def samePhase (data : List ℚ) (p : Nat) : List ℚ :=
  (List.range (data.length / p)).map fun k => data.getD (data.length - (k + 1) * p) 0

/-- `stl_adjust_trend(data, np, log_transform)` (`r_stl.py:83-110`). A slice with step 0 is a ValueError. -/
def stlAdjust (L : Lib) (data : List ℚ) (p : Nat) (log : Bool) : Except PyErr Stl :=
  if p = 0 then .error .valueError                                              -- 97
  else do
    let origin ← stlPlain L data p log                                          -- 99
    if data.length < p then L.stlShort data p log
    else do
      let adj ← stlPlain L (data ++ [npMedian (samePhase data p)]) p log        -- 97, 100
      let n := data.length
      if |origin.remainder.getD (n - 1) 0| ≤ |adj.remainder.getD (n - 1) 0| then pure origin   -- 102-106
      else pure { trend := adj.trend.take n, seasonal := adj.seasonal.take n
                  remainder := adj.remainder.take n }                           -- 108-110

/-! ## `fit_trend` -/

/-- the window of `fit_trend` (`helpers.py:86-89`) with `ptimes = 2` -/
def trendWindow (n p : Nat) : Nat := if p ≤ 1 then min (n / 3) 512 else p * 2 / 2 * 2 - 1

/-- `fit_trend(data, kind, period)` for a given kind and period (`helpers.py:86-101`). -/
def fitTrendKind (L : Lib) (data : List ℚ) (kind : String) (p : Nat) : Except PyErr (List ℚ) :=
  let w := trendWindow data.length p
  if kind = "median" then L.aglet (medianFilter L.rest.f32 data w false) w      -- 90-91
  else if kind = "mean" then do L.aglet (← L.meanFilter data w) w               -- 92-93
  else if kind = "line" then L.lineFilter data w                                -- 94-95
  else if kind = "spline" then                                                  -- 96-98
    if w * 2 = 0 then .error .zeroDivision
    else do L.aglet (← L.splineFilter data (data.length / (w * 2) + 1)) w
  else .error .exception                                                        -- 99-100

/-- the weighted mean `np.average(periods, weights=scores)` (`helpers.py:114`); zero total weight is a
ZeroDivisionError -/
def weightedMean (ps : List (ℚ × ℚ)) : Except PyErr ℚ :=
  if (ps.map (·.2)).sum = 0 then .error .zeroDivision
  else .ok ((ps.map fun x => x.1 * x.2).sum / (ps.map (·.2)).sum)

/-- `guess_trended_period(data)` (`helpers.py:104-115`). Unpacking `zip(*[])` is a ValueError. -/
def guessTrendedPeriod (L : Lib) (data : List ℚ) : Except PyErr Nat := do
  let maxPeriod := min (data.length / 3) 512                                    -- 105
  let broad ← fitTrendKind L data "median" maxPeriod                            -- 106
  if !L.broadFinite broad then .error .exception                                -- 107-108
  else
    match ← L.peaks (List.zipWith (· - ·) data broad) with                      -- 110
    | none => pure maxPeriod                                                    -- 111-112
    | some [] => .error .valueError                                             -- 113
    | some ps => (weightedMean ps).map roundHalfEven                            -- 114

/-- `fit_trend(data, kind, period)` (`helpers.py:81-101`); `kind = None` is `none`. -/
def fitTrend (L : Lib) (data : List ℚ) (kind : Option String) (period : Option Nat) : Except PyErr (List ℚ) :=
  match kind with
  | none => .ok (data.map fun _ => npMean data)                                 -- 82-83
  | some k =>
    match period with
    | some p => fitTrendKind L data k p
    | none => do fitTrendKind L data k (← guessTrendedPeriod L data)            -- 84-85

/-! ## The spectral residual -/

section Spectral
variable {α : Type} [Field α] [LinearOrder α]

/-- The loop `_anomaly_kernel_cython.pyx:306-316` from index `i` on with the running product `current`: the
amplitudes. `root x k` is `pow(x, 1. / k)`. -/
def srAmpLoop (root : α → Nat → α) (mag : List α) : List α → Nat → α → List α
  | [], _, _ => []
  | d :: t, i, current =>
    let current := if 0 < d then current * d else current                       -- 307-308
    if i < 3 then root current (i + 1) :: srAmpLoop root mag t (i + 1) current  -- 310-311
    else
      let old := mag.getD (i - 3) 0
      let current := if 0 < old then current / old else current                 -- 313-314
      root current 3 :: srAmpLoop root mag t (i + 1) current                    -- 316

/-- the vector `amplitude` -/
def srAmplitude (root : α → Nat → α) (mag : List α) : List α := srAmpLoop root mag mag 0 1

/-- `spectral_residual_transform_core(values)` (`_anomaly_kernel_cython.pyx:281-325`) over given transforms, square root
and roots. -/
def srCore (fft : List α → List (α × α)) (ifft : List (α × α) → List (α × α)) (sqrt : α → α) (root : α → Nat → α)
    (values : List α) : List α :=
  let trans := fft values                                                       -- 296
  let mag := trans.map fun z => sqrt (z.1 ^ 2 + z.2 ^ 2)                        -- 297
  let amp := srAmplitude root mag                                               -- 306-316
  let res := List.zipWith (fun (z : α × α) a => if a ≠ 0 then (z.1 / a, z.2 / a) else (0, 0)) trans amp   -- 318-319
  (ifft res).map fun z => sqrt (z.1 ^ 2 + z.2 ^ 2)                              -- 322-325

end Spectral

/-- `spectral_residual_transform_core(values)` -/
def srTransform (L : Lib) (values : List ℚ) : List ℚ := srCore L.fft L.ifft L.rest.sqrt L.root values

/-! ## Critical values -/

/-- the critical value of the generalised ESD test as a function of `t` and of `m = n - i`
(`_anomaly_kernel_cython.pyx:62`) -/
def esdFormula {α : Type} [Field α] (sqrt : α → α) (t : α) (m : Nat) : α :=
  t * m / sqrt (((m : α) - 1 + t ^ 2) * ((m : α) + 1))

/-- the probability (`_anomaly_kernel_cython.pyx:58`) as a function of `m = n - i` -/
def esdP {α : Type} [Field α] (alpha : α) (m : Nat) : α := 1 - alpha / ((m : α) + 1)

/-- the same for a float -/
def esdProb (alpha : PyFloat) (m : Nat) : PyFloat :=
  match alpha with
  | .fin a => .fin (esdP a m)
  | .pinf => .ninf
  | .ninf => .pinf
  | .nan => .nan

/-- `calculate_esd_values(i, alpha, n)` (`_anomaly_kernel_cython.pyx:56-62`) for `i < n`. An infinite `t` gives
`inf / inf`; `0 / 0` is NaN as well. -/
def esdValueOf (L : Lib) (i : Nat) (alpha : PyFloat) (n : Nat) : PyFloat :=
  let alpha := match alpha with                                                 -- C float argument
    | .fin a => .fin (L.rest.f32 a)
    | x => x
  let m := n - i
  match L.tppf (esdProb alpha m) (m - 1) with                                   -- 58-61
  | .fin t =>
    if L.rest.sqrt (((m : ℚ) - 1 + t ^ 2) * ((m : ℚ) + 1)) = 0 then .nan
    else .fin (L.rest.f32 (esdFormula L.rest.sqrt t m))                         -- 62
  | _ => .nan

/-! ## The histogram ratio -/

/-- the bin of a value in `np.histogram(values, bins=20)`: 20 equal bins from the least to the greatest value, the last
one closed; if all values agree the range is widened by one half on both sides -/
def histBin (l : List ℚ) (x : ℚ) : Nat :=
  let lo := if npMin l = npMax l then npMin l - 1 / 2 else npMin l
  let hi := if npMin l = npMax l then npMax l + 1 / 2 else npMax l
  min 19 ((x - lo) * 20 / (hi - lo)).floor.toNat

/-- the number of values in bin `b` -/
def histCount (l : List ℚ) (b : Nat) : Nat := (l.filter fun x => histBin l x == b).length

/-- `np.max(histogram_counts) / len(values)` (`detect_model.py:108-110`); `none` when `np.histogram` raises. -/
def histMajorityOf (L : Lib) (l : List ℚ) : Option ℚ :=
  if l.length = 0 ∨ L.histRaises l then none
  else some (((List.range 20).map (histCount l)).foldl max 0 / l.length)

/-! ## The environment -/

/-- The environment made of the definitions above. -/
def Lib.env (L : Lib) : Env :=
  { L.rest with
    histMajority := histMajorityOf L
    criticalTable := criticalTable
    esdValue := esdValueOf L
    fitTrend := fun l p => fitTrend L l (some "spline") p
    stl := fun adjust l p log => if adjust then stlAdjust L l p log else stlPlain L l p log
    srTransform := srTransform L }

namespace Lib

/-- Laws of the third-party functions that theorems may assume. -/
structure WF (L : Lib) : Prop where
  toDatetime_len : ∀ l r, L.rest.toDatetime l = .ok r → r.length = l.length
  gauss_pos : 0 < L.rest.gaussC
  sqrt_nonneg : ∀ x, 0 ≤ L.rest.sqrt x
  sqrt_zero : ∀ x, 0 ≤ x → (L.rest.sqrt x = 0 ↔ x = 0)
  f32_mono : Monotone L.rest.f32
  argsort_perm : ∀ l, (L.rest.argsort l).Perm (List.range l.length)
  argsort_sorted : ∀ l, ((L.rest.argsort l).map fun i => l.getD i 0).Pairwise (· ≤ ·)
  argsortDesc_perm : ∀ l, (L.rest.argsortDesc l).Perm (List.range l.length)
  argsortDesc_sorted : ∀ l, ((L.rest.argsortDesc l).map fun i => l.getD i 0).Pairwise (· ≥ ·)
  trendNaN_len : ∀ l r, L.rest.fitTrendNaN l = .ok r → r.length = l.length
  acf_len : ∀ l n, (L.rest.acf l n).length = n
  spline_len : ∀ i v n r, L.rest.spline i v n = .ok r → r.length = n
  spline_knot : ∀ (i : List Nat) (v : List ℚ) (n : Nat) (r : List ℚ), L.rest.spline i v n = .ok r →
    ∀ k, k < i.length → i.getD k 0 < n → r.getD (i.getD k 0) 0 = v.getD k 0
  stl_len : ∀ l p r, L.stlCore l p = .ok r →
    r.trend.length = l.length ∧ r.seasonal.length = l.length ∧ r.remainder.length = l.length
  stlShort_len : ∀ l p g r, L.stlShort l p g = .ok r →
    r.trend.length = l.length ∧ r.seasonal.length = l.length ∧ r.remainder.length = l.length
  aglet_len : ∀ l w r, L.aglet l w = .ok r → r.length = l.length
  spline_filter_len : ∀ l w r, L.splineFilter l w = .ok r → r.length = l.length
  mean_filter_len : ∀ l w r, L.meanFilter l w = .ok r → r.length = l.length
  line_filter_len : ∀ l w r, L.lineFilter l w = .ok r → r.length = l.length
  fft_len : ∀ l, (L.fft l).length = l.length
  ifft_len : ∀ l, (L.ifft l).length = l.length

end Lib

end Verif
