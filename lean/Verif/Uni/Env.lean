import Verif.Uni.Num
import Verif.Uni.DateUtils
import Verif.Uni.FillUp

/-!
# The environment: library functions the code calls

Every field is an arbitrary function. `Env.WF` lists the laws that theorems may assume; each theorem takes
only what it needs.
-/

namespace Verif

/-- STL decomposition result. -/
structure Stl where
  trend : List ℚ
  seasonal : List ℚ
  remainder : List ℚ

structure Env where
  /-- `float(s)` for a string; `none` is ValueError -/
  parseFloat : String → Option PyFloat
  /-- `pd.to_datetime(list).tolist()`; `none` entries are `NaT` -/
  toDatetime : List PyVal → Except PyErr (List (Option Stamp))
  /-- `np.max(np.histogram(values, bins=20)[0]) / len(values)`; `none` if `np.histogram` raises -/
  histMajority : List ℚ → Option ℚ
  /-- `Gaussian.ppf(3/4)` -/
  gaussC : ℚ
  /-- `sqrt` -/
  sqrt : ℚ → ℚ
  /-- conversion to C `float` -/
  f32 : ℚ → ℚ
  /-- the stream of `rand()` -/
  rnd : Nat → Nat
  /-- `Series.sort_values(ascending=True).index` for a RangeIndex series (order of ties unspecified) -/
  argsort : List ℚ → List Nat
  /-- positions of `sort_values(ascending=False)` -/
  argsortDesc : List ℚ → List Nat
  /-- `critical_table` (`util/critical_table_values.py`) -/
  criticalTable : List ℚ
  /-- `calculate_esd_values(i, alpha, n)` (`_anomaly_kernel_cython.pyx:56-62`) -/
  esdValue : Nat → PyFloat → Nat → PyFloat
  /-- `fit_trend(data, kind='spline', period=period)` (`util/helpers.py:81-101`) -/
  fitTrend : List ℚ → Option Nat → Except PyErr (List ℚ)
  /-- the same for a vector whose last entry is NaN (`spectral_residual_model.py:31, 51`), with NaN results
  replaced by 0 (67) -/
  fitTrendNaN : List ℚ → Except PyErr (List ℚ)
  /-- `stl` / `stl_adjust_trend` (`util/r_stl.py`): adjust_trend, series, period, log_transform -/
  stl : Bool → List ℚ → Nat → Bool → Except PyErr Stl
  /-- `ADF(x).pvalue < 0.05 or KPSS(x).pvalue >= 0.05`, True when one of them raises
  (`model/detect_model.py:39-43`) -/
  stationary : List ℚ → Bool
  /-- `spectral_residual_transform_core` (`_anomaly_kernel_cython.pyx:281-325`) -/
  srTransform : List ℚ → List ℚ
  /-- `np.quantile(values, q)` -/
  quantile : List ℚ → ℚ → ℚ
  /-- `sm.tsa.acf(data, nlags, fft=False, alpha=0.1)` without lag 0: value and upper confidence limit -/
  acf : List ℚ → Nat → List (ℚ × ℚ)
  /-- cubic `interp1d` -/
  spline : SplineOracle

namespace Env

/-- `np.std` -/
def std (E : Env) (l : List ℚ) : ℚ := E.sqrt (npVar l)

/-- `robust.mad(a)` of statsmodels: median of `|a - median(a)| / c`. -/
def mad (E : Env) (l : List ℚ) : ℚ := npMedian (l.map fun x => |x - npMedian l|) / E.gaussC

/-- `np.nanmean`-free population facts the theorems may assume about the libraries. -/
structure WF (E : Env) : Prop where
  toDatetime_len : ∀ l r, E.toDatetime l = .ok r → r.length = l.length
  hist_pos : ∀ l r, E.histMajority l = some r → 0 < r
  gauss_pos : 0 < E.gaussC
  sqrt_nonneg : ∀ x, 0 ≤ E.sqrt x
  sqrt_zero : ∀ x, 0 ≤ x → (E.sqrt x = 0 ↔ x = 0)
  f32_mono : Monotone E.f32
  argsort_perm : ∀ l, (E.argsort l).Perm (List.range l.length)
  argsort_sorted : ∀ l, ((E.argsort l).map fun i => l.getD i 0).Pairwise (· ≤ ·)
  argsortDesc_perm : ∀ l, (E.argsortDesc l).Perm (List.range l.length)
  argsortDesc_sorted : ∀ l, ((E.argsortDesc l).map fun i => l.getD i 0).Pairwise (· ≥ ·)
  table_len : E.criticalTable.length = 18000
  trend_len : ∀ l p r, E.fitTrend l p = .ok r → r.length = l.length
  trendNaN_len : ∀ l r, E.fitTrendNaN l = .ok r → r.length = l.length
  stl_len : ∀ a l p g r, E.stl a l p g = .ok r →
    r.trend.length = l.length ∧ r.seasonal.length = l.length ∧ r.remainder.length = l.length
  sr_len : ∀ l, (E.srTransform l).length = l.length
  sr_nonneg : ∀ l x, x ∈ E.srTransform l → 0 ≤ x
  acf_len : ∀ l n, (E.acf l n).length = n
  spline_len : ∀ i v n r, E.spline i v n = .ok r → r.length = n
  /-- an interpolating spline passes through its knots -/
  spline_knot : ∀ (i : List Nat) (v : List ℚ) (n : Nat) (r : List ℚ), E.spline i v n = .ok r →
    ∀ k, k < i.length → i.getD k 0 < n → r.getD (i.getD k 0) 0 = v.getD k 0

end Env

end Verif
