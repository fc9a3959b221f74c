# Formal model of microsoft/anomaly-detector

The model is Lean 4 (with single Mathlib modules) under `lean/Verif/`. It is a shallow, executable model: each Python function becomes
a total Lean function, exceptions become values, mutation becomes returning the new value, loops become folds or structural or
well-founded recursion. Every definition cites the file and lines in `/repo` it models. Paths below are relative to
`/repo/src/anomaly_detector`.

## Layout

- `Verif/Py.lean` Python values, exceptions, dicts.
- `Verif/Uni/*.lean` model of `univariate/`; `Inv`, `Run`, `Blind`, `Complete` hold lemmas about it, no model code.
- `Verif/Multi/*.lean` model of `multivariate/` and `common/`; `Lemmas`, `NetLemmas`, `Infer`, `Inv`, `Run`, `Fit` hold lemmas.
- `Verif/Spec/*.lean` specifications. They share data types with the model and none of its functions.
- `Verif/Props/*.lean` the property theorems `Cxx_…`, each with a concrete case that meets its hypotheses (an `example` nearby).
- `Verif/Demo.lean`, `Verif/Multi/Demo.lean`, `Verif/Multi/DemoNet.lean` concrete library behaviours for these cases.
- `MANIFEST.json` maps properties to theorems, `seeded/LOG.jsonl` records the tests of theorems against wrong programs.

## Trusted base

1. The kernel of Lean 4.33.0 (`decide +kernel` is evaluated by it; no `native_decide`, no `bv_decide`, no compiled code).
2. Axioms, as printed by `#print axioms` for every theorem in `MANIFEST.json`: none but `propext`, `Classical.choice`, `Quot.sound`.
   All theorems use these three, except `C37_latest`, `C81_guesses`, `C104_round_trip`, `C105_refused` (`propext`, `Quot.sound`), `C58_unique`,
   `C104_instant` (`propext`), `C45_keeps`, `C104_read` (none). The development adds no axiom.
3. The reading of the Python and Cython code written down in the model, and the decisions below.

## Modelling decisions

**Numbers.** A finite float is a rational number; `+ - * /` and comparisons are exact. NaN and infinities (`PyFloat`) are modelled where
a caller can put them in: value cells, alpha, ratio, threshold, fixed value; in the losses, thresholds and correlations of the
multivariate code and in `mape`. Anomaly budgets `num_obs * ratio`, `k / num_obs` and `1 / num_obs` are computed in IEEE doubles (`dmul`, `ddiv`).
Conversion to C `float` is an arbitrary monotone function `f32`. It is applied where arrays enter the Cython kernels and where the
multivariate dataset emits tensors; arithmetic afterwards is exact, and `f32` does not overflow. The products of the
multivariate code that are truncated (row counts and ranks) are computed in IEEE doubles, their ratios being the doubles nearest to the literals. The positions of timestamps are
computed in IEEE doubles (`roundDouble`, 53 bit significand, no overflow), including `Timestamp.timestamp()` = `round(ns / 1e9, 6)` and
`0.001 * customInterval * 1000` (`Uni/Rounding.lean`, `Uni/DateUtils.lean`; facts in `Uni/Double.lean`, where `roundSigned` is shown to give a nearest double); stamps have nanosecond resolution. The margin
stage (`refine.py`, `boundary_utils.py`) is modelled twice: exactly (`Uni/Margins.lean`, part of the modelled `predict`) and with every operation
rounded (`Uni/MarginsFloat.lean`, C108). Other decimal literals in the source are taken at
their decimal value.

**Libraries.** Third-party functions are fields of the structures `Env` (univariate) and `MEnv` (multivariate): arbitrary functions, which
may raise where the code expects it. Theorems hold for every such structure. Where a law of the library is needed it is a field of
`Env.WF`, `Lib.WF`, `TableEnv.WF`, `NumEnv.WF`, `MEnv.WF`, `TrainWF`, `Hbos.WF` or `TimeLib.WF`: lengths of filter and decomposition results, sorts return sorted
permutations (ties in any order), `sqrt x = 0` iff `x = 0`, an interpolating spline passes through its knots, `exp` is monotone with
`exp 0 = 1` and `exp 1 ≤ np.e`, `sigmoid` lies in [0,1], the shuffling loader visits every sample once and does not touch the weights.
`demoEnv_WF`, `demoLib_WF` and the multivariate counterparts exhibit structures that satisfy them. In the univariate model only C117
assumes in addition that library calls return on the inputs they document (`Spec.Total`, met by `demoEnv_total`; `C117_library` derives it for `Lib.env`); the other theorems
allow them to raise. C133 assumes in addition that library functions treat a series and its mirror image alike (`Spec.Mirror`, met by
`mirrorEnv_mirror`; `C133_library` derives it for `Lib.env` from `Spec.LibMirror`). C135 assumes that they commute with multiplication by a
constant (`Spec.Scale`, met by `scaleEnv_scale`), the spectral residual only on the lists that occur (`Spec.Regular`, see C86). C137 assumes that the
fitted trend follows a change of scale and zero point and that stationarity tests and histogram do not see it (`Spec.Degrees`, met by `demoEnv_degrees`; `C137_library` derives it for `Lib.env` from `Spec.LibDegrees`). C138 assumes that
no critical value is greater for the second alpha (`Spec.NotStricter`, met by `alphaEnv_notStricter`).
`C138_library` derives it from `Spec.LibAlpha` (met by `alphaLib_alpha`), whose law `sqrt_scale` ignores the rounding of the square root.
`C130_latest` assumes that the share of the fullest histogram bin is at most 1 (`C88_histogram` shows it for `Lib.env`).

**Two layers of the univariate environment.** `Env` also has fields for some functions of the code itself: `stl`, `stl_adjust_trend`,
`fit_trend`, `spectral_residual_transform_core`, `calculate_esd_values`, the histogram ratio and the critical table. `Uni/Lib.lean` and
`Uni/CriticalTable.lean` define these from third-party primitives only (`Lib`); `Lib.env_WF` proves the laws of `Env` about them, so
every theorem over `Env` applies to them. The table of 18000 critical values is stored packed (26 bits per entry, multiples of 2^-23).

**Errors.** `PyErr` distinguishes exception classes, not messages. `Stop.unmodelled` marks the places where control leaves the model
(listed below). In the univariate model such runs are answered by an arbitrary oracle `Wild`, so that theorems about all answered
requests either cover them or exclude them by an explicit hypothesis (`FiniteFill`: no gaps, or not imputeMode 'fixed' and a finite fixed
value). `Wild` does not see `detector`, alpha and other values the code does not read there.

**State.** A univariate detector is its `detect_mode`; a params dict is a finite map, and a call returns the dict it leaves behind. A
multivariate program is a state machine over the detector object, the files in the save directory and the caller's params; every
exception keeps the mutations made before it (`MM`). `Reachable` describes the states a program can reach by any sequence of calls.
`self.model = model` aliases the trained network; a later `fit` builds a new one, so sharing has no effect.

**pandas and torch.** pandas < 3 (chained assignment writes through, `fillna(False)` gives booleans, `fillna(method=)` exists). torch
broadcasting of shapes that occur is modelled; a shape that torch rejects is a RuntimeError. Dropout is the identity in evaluation mode; in training mode an
arbitrary set of entries is dropped.

## What is modelled

| file | modelled |
|---|---|
| `univariate/univariate_anomaly_detection.py` | all |
| `univariate/model/detect_model.py` | all but logging |
| `univariate/model/{detect,dynamic_threshold,seasonal_series,spectral_residual_model,series_compete_processor}.py` | all but logging |
| `univariate/detectors/{esd_filter,z_score,spectral_residual,dynamic_filter}.py` | all |
| `univariate/filling_up/*.py` | all methods and options; `backward_n` and `forward_n` are natural numbers, `weights` finite floats, `maximum_fillup_length` its default |
| `univariate/period/*.py` | all |
| `univariate/util/{boundary_utils,refine,stl_helpers,r_stl,critical_table_values}.py` | all |
| `univariate/model/hbos_detection.py` | all; pyod's HBOS is a library function |
| `univariate/util/helpers.py` | all |
| `univariate/util/date_utils.py` | all functions (strings are ASCII; `strptime` is modelled for the directives used, with its backtracking and case folding; `strftime` writes `%Y` unpadded as glibc does) |
| `common/time_util.py` | all; the parser and `strftime` are library functions |
| `univariate/_anomaly_kernel_cython.pyx` | all: quick select, medians, MAD, ESD and threshold tests, median filter, despiking, spectral residual, critical values |
| `common/{constants,data_processor,exception}.py` | all |
| `multivariate/{contract,dataset,util,model}.py` | all but mlflow, devices, progress bars |
| `multivariate/module.py` | the network in evaluation and in training mode, layer by layer; `DetectionResults`; the loss criterion |

Not modelled: message texts, logging, printing, mlflow packaging, devices, floating-point rounding (except as said above).


Runs that leave the model (`Stop.unmodelled`):

- univariate: gaps with imputeMode 'fixed' (the code then puts `None` into the series, C30) if a period is given or more than half of the grid is
  missing (otherwise the period detection fails, which is modelled), and a non-finite fixed value with gaps;
- multivariate: parameters of a wrong type or outside their sensible range in `Config.ofParams` (integers below 1, negative or non-finite
  ratios), a negative sliding window, a network with non-finite weights, an infinite `fill_na_value` that has to be used.
  Infinite cells and tables without rows or columns are excluded by the type `Frame` and `Frame.WF`.

Most multivariate theorems treat training steps (Adam, dropout, sampling noise, the loss) as an arbitrary function `step` of training state
and batch, and the evaluation loss as an arbitrary function `evalLoss` of weights and batch (32-bit arithmetic can overflow); C89 assumes
that it is the exact value `batchLoss` of the modelled network and criterion. `Multi/Train.lean` builds both from the code (`TrainEnv.env`):
forward pass in training mode, noise, loss, which part of the state the optimizer changes. The random generator, the initial
weights, the gradient (autograd), the optimizer (Adam) and losses that are not finite stay arbitrary; the laws assumed of them are
`TrainWF`. `C119_laws` proves that this environment meets the laws of `MEnv` and the exactness assumption of C89.

## Defects found

Each is stated as a property "Intended: … Actual: …" with a theorem, or follows from the definitions cited.

Univariate:

- Validation never raises `AnomalyDetectionRequestError`: `predict` tests `_error_msg`, which stays None (C08). A rejected request ends in
  TypeError, KeyError or ValueError.
- The caller's params dict is modified and cannot be used twice (C09); a dict with key `indices` bypasses validation (C66).
- `detect_mode` latches on the first call (C10).
- An explicit `detector` always raises, `print(count=…)` (C24).
- `needDetectorId`, `needFillUpConfirm` and `needSpectrumPeriod` are accepted and add nothing to the answer; the last can only make a
  request fail (C118).
- `fill_up`: a spline per gap that goes on after an error can overwrite an observation or loop forever (C90); 'fill_with_last' is a
  TypeError for whole-series methods (C96); the gap reports raise AttributeError without gaps (C97). `predict` reaches none of these but the
  second.
- `imputeMode='fixed'` never uses `imputeFixedValue`; with gaps and no period it raises TypeError; `fillUpMode='zero'` fills nothing (C30).
- maxAnomalyRatio bounds each direction, not the total (C20).
- In LATEST mode the spectral residual model can flag a point in the wrong direction with expected value 0 (C15).
- Bucket despiking uses 1e-8 or a negative number instead of the MAD (C43).
- Detector fusion can prefer a point that fewer detectors propose (C38).
- The two-sided median filter searches unrounded data (C35). Microsecond granularity raises KeyError for an accepted calendar period,
  and a rejected calendar period can be reported (C81).
- Positions of timestamps go through doubles: stamps an exact hour or second apart can be refused, and different stamps can get the same
  position (C05); a secondly series moved by a fraction of a second can be refused although it was accepted before (C110). Granularity 'microsecond' counts milliseconds and misreads intervals such as 4007 (C65).
- The guessed period of daily, weekly and monthly data ignores customInterval, so the same step in another unit can get another period (C126).
- NaN or infinite alpha is accepted and disables the ESD detector (C87); NaN ratio passes its gate and ends in a ValueError (C07, C116).
- LATEST mode lowers the ratio when most values fall into one histogram bin, and then misses latest points that ENTIRE mode
  reports (C115).
- With the dynamic threshold model and with the seasonal model a larger `maxAnomalyRatio` can remove anomalies (C130), and so can
  a higher `alpha` (C138). With the spectral residual model a higher
  `threshold` can add one (C132).
- V1 boundaries are cut off at the range of the data, but when every lower boundary lies below the smallest value none of them is (C133).
- V2 and V3 boundaries depend on the unit of the data: their least unit is 0.3 in every unit. Very small numbers can lose their anomalies (C135).
- V1 margins of the dynamic threshold and seasonal models are a share of the expected value: below sensitivity 100 the answer depends on where zero is (C137).
- In doubles the value of a normal point can exceed the upper end of its own band (C108).
- The spectral residual depends on the unit of the data when a frequency vanishes (C86).
- The period-too-long check only sets an error code; the cap on filled points never triggers for requests that pass the other gates (C29);
  the spectrum cycle check is dead code; the last severity in V2 uses the flag before margins; severity and score are not returned.

- The answer of the multivariate detector depends on the units of the variables where their values are small (C136).
- Histogram-based detection, which the public API cannot reach because its import fails, omits the direction columns when nothing is flagged and
  never leaves the anomalies out of its nonseasonal expected values (C103).

Multivariate:

- Dynamic thresholds are misaligned with the scores they are compared to (C51); results of an unsorted table are labelled with the wrong
  index (C48); variable weights come from the unsorted raw data.
- `fit` pops keys of the caller's params (C60); `predict` ignores all of its params but the fill parameters (C70).
- Fewer training windows than `batch_size`: no training step, silently (C72). Empty validation data: loss 0, the first epoch is kept (C63).
- If every loss is NaN or infinite, or `epochs <= 0`, a stale or missing checkpoint is loaded (C58). The checkpoint is saved before the
  threshold is computed (C69).
- A failed second `fit` can break or change a working detector (C75). `sliding_window < 14` makes `fit` always fail (C76).
- `horizon` moves the targets of training, not those of validation, threshold and prediction (C128).
- The parameters `dropout` and `gamma` have no influence (C120). `batch_size=1` is accepted and always fails (C121).
- A `fit` that fails after its epochs (`level=1.0`) leaves the new network beside the old threshold (C121).
- With linear filling a row that is appended can change the results of earlier rows (C109).
- Rows that all score alike are all anomalies if they reach the lower threshold, even with score 0 (C112); `predict` does not compare
  variable names with those of the training (C111); a column named "timestamp" stays in the values but not in the weights, so `fit`
  fails for most tables that have one (C113).

## Properties

| id | property | status | theorems (file in `Props/`) | note |
|---|---|---|---|---|
| C01 | Series size gate | proved | `C01_size_gate` (Gate) |  |
| C02 | Series value gate | proved | `C02_value_gate` (Gate) |  |
| C03 | Timestamp order gate | proved | `C03_timestamp_order` (Gate) |  |
| C04 | Grid alignment gate | proved | `C04_grid_alignment`, `C04_near` (Gate) |  |
| C05 | Timestamp to index map is exact | proved | `C05_index_map`, `C05_near`, `C05_inexact`, `C05_index_strictly_increasing`, `C05_first_invalid`, `C05_first_invalid_calendar`, `C05_first_invalid_calendar_not_first` (Dates) | defect: exactness refuted for fractional seconds and beyond 2116 (C05_inexact); exact on whole seconds, within 20 microseconds otherwise |
| C06 | Calendar difference | proved | `C06_calendar_difference` (Dates) |  |
| C07 | Parameter gates | proved | `C07_parameter_gates`, `C07_ratio_number`, `C07_accepts` (Calls) |  |
| C08 | Rejected requests are reported as AnomalyDetectionRequestError | proved | `C08_parameter_rejection`, `C08_never_request_error`, `C08_unhashable`, `C08_series_rejection` (Reject) | defect: intended property refuted. Proved: the actual behaviour. |
| C09 | A params dict can be used for more than one call | proved | `C09_second_call_fails`, `C09_answered_then_fails` (Calls) | defect: intended property refuted. Proved: every reuse fails. |
| C10 | Detect mode of a detector is fixed by construction or by the first call | proved | `C10_mode_fixed`, `C10_mode_latched`, `C10_request_mode_ignored` (Calls) |  |
| C11 | Calls do not influence each other | proved | `C11_history_free` (Calls) |  |
| C12 | Entire mode answers every point in order | proved | `C12_entire_items` (Output) | imputeMode='fixed' on a series with gaps is outside the quantifier (not modelled). |
| C13 | Latest mode answers the last point | proved | `C13_latest_item` (Output) | imputeMode='fixed' on a series with gaps is outside the quantifier (not modelled). |
| C14 | Anomaly flags are consistent | proved | `C14_flags_consistent` (Output) | imputeMode='fixed' on a series with gaps is outside the quantifier (not modelled). |
| C15 | Anomaly direction agrees with the value, except for a latest point without reference | proved | `C15_direction_entire`, `C15_direction`, `C15_direction_regular`, `C15_wrong_direction` (Output) | intended property holds in ENTIRE mode (C15_direction_entire) and, for regular first magnitudes, in every mode (C15_direction_regular). C15_direction: what holds in every mode without that assumption. C15_wrong_direction: a LATEST request where -100 is reported as positive anomaly with expected value 0, for a spectral residual transform that obeys the assumed laws (length and nonnegativity); the transform itself (FFT, log, exp) is not modelled, so this shows that the guard in the code does not exclude the case, not that a particular input reaches it. |
| C16 | The band separates anomalies from normal points | proved | `C16_band` (Output) | imputeMode='fixed' on a series with gaps is outside the quantifier (not modelled). |
| C17 | Margins are never negative | proved | `C17_margins_nonneg` (Output) | imputeMode='fixed' on a series with gaps is outside the quantifier (not modelled). |
| C18 | Sensitivity is monotone | proved | `C18_sensitivity_monotone` (Sens) | imputeMode='fixed' on a series with gaps is outside the quantifier (not modelled). |
| C19 | Sensitivity 100 reports everything the detector flagged | proved | `C19_full_sensitivity` (Sens) | imputeMode='fixed' on a series with gaps is outside the quantifier (not modelled). |
| C20 | Number of anomalies is bounded by maxAnomalyRatio | proved | `C20_second_budget`, `C20_count_bound`, `C20_total_bound_fails` (Count) | defect: the ratio is per direction, and the budget of the second pass can grow by one through rounding. imputeMode='fixed' on a series with gaps is outside the quantifier (not modelled). |
| C21 | Points equal to their expectation are never anomalies | proved | `C21_near_points` (Output) | imputeMode='fixed' on a series with gaps is outside the quantifier (not modelled). |
| C22 | Reported period | proved | `C22_requested_period`, `C22_detected_period` (Periods) | imputeMode='fixed' on a series with gaps is outside the quantifier (not modelled). |
| C23 | Suggested window | proved | `C23_suggested_window` (Sens) | imputeMode='fixed' on a series with gaps is outside the quantifier (not modelled). |
| C24 | Explicit detector choice works | proved | `C24_explicit_detector_fails` (Calls) | defect: intended property refuted. Proved: the actual behaviour. |
| C25 | Imputation keeps observed points | proved | `C25_imputation_keeps_observed` (Fill) |  |
| C26 | Imputation values per mode | proved | `C26_imputation_values` (Fill) |  |
| C27 | Automatic imputation stays within the observed range | proved | `C27_auto_within_observed` (Fill) |  |
| C28 | Too sparse seasonal requests are rejected | proved | `C28_sparse_rejected`, `C28_sparse_unseasonal` (Sparse) |  |
| C29 | Fill-up cap never blocks a seasonal request | proved | `C29_cap_never_blocks`, `C29_seasonal_series_full` (Sparse) |  |
| C30 | Requested imputation is applied | proved | `C30_fixed_value_ignored` (Calls); `C30_fixed_gaps` (FixedGaps); `C30_fixed_constant_lost`, `C30_zero_not_applied`, `C30_constant` (Sparse) | defect: intended property refuted. C30_fixed_value_ignored: outcomes of requests that differ only in imputeFixedValue agree, in all cases, including those where the series then contains None (the libraries' reaction to None is left to the oracle Wild, which sees only what the code passes on). C30_constant: what imputeMode='zero' and fillUpMode='fixed' do. |
| C31 | Auto-detected periods never fail the two-period check | proved | `C31_two_periods` (Periods) |  |
| C32 | Boundary units are bounded below | proved | `C32_units_bounded`, `C32_margin_computed`, `C32_margins_computed` (Sens) |  |
| C33 | Anomaly score scale | proved | `C33_score_range`, `C33_score_zero`, `C33_score_monotone`, `C33_score_scale`, `C33_severity` (Score) |  |
| C34 | Quick select and median | proved | `C34_quick_select`, `C34_terminates`, `C34_fast_median`, `C34_random_independent` (Median) |  |
| C35 | Sliding median filter | proved | `C35_short`, `C35_moving_median`, `C35_two_end`, `C35_two_end_rounding` (Filters) | defect: intended property refuted at the end of the array for data that is not float32 (C35_two_end_rounding). |
| C36 | Fast MAD | proved | `C36_fast_mad` (Mad) |  |
| C37 | ESD selection | proved | `C37_generalized_esd`, `C37_dynamic_threshold`, `C37_latest` (Select) |  |
| C38 | Detector fusion | proved | `C38_fusion`, `C38_detect`, `C38_two_detectors`, `C38_three_detectors` (Select) | defect: intended preference refuted for three detectors (C38_three_detectors). Proved: the actual priority order. |
| C39 | Moving average | proved | `C39_average`, `C39_padded` (Filters) |  |
| C40 | Seasonal means and leave-one-out error | proved | `C40_seasons`, `C40_error`, `C40_nonneg`, `C40_max_gcv`, `C40_candidates` (Gcv) | Exact arithmetic on float32 inputs; the code accumulates in float32. |
| C41 | Correlogram search | proved | `C41_correlogram` (Periods); `C41_candidates` (Simple) |  |
| C42 | Spectrum period search terminates | proved | `C42_spectrum_period`, `C42_refinement_terminates` (Periods) |  |
| C43 | Bucket despiking uses the bucket's MAD | proved | `C43_despike`, `C43_not_mad`, `C43_inverted` (Gcv) | defect: intended property refuted. Proved: the actual behaviour. |
| C44 | Differencing preserves length and is invertible | proved | `C44_length`, `C44_differences`, `C44_inverse`, `C44_order` (Delta) |  |
| C45 | The second detection pass only adds anomalies | proved | `C45_second_pass`, `C45_keeps` (Delta) |  |
| C46 | Missing value handling (multivariate) | proved | `C46_fill`, `C46_accepts`, `C46_parameters`, `C46_names` (Table) | Infinite cells are not modelled. C46_fill: content; C46_names: distinct names; C46_accepts: totality and DataFormatError; C46_parameters: method names and fill value. |
| C47 | Order independence (multivariate) | proved | `C47_process`, `C47_columns` (Table) | C47_process: rows and columns, preprocessing. C47_columns: fit and predict, columns. Row order does matter for fit and predict (see C48). |
| C48 | Results are labelled with the row they score | proved | `C48_labels`, `C48_sorted`, `C48_wrong_label` (MultiPredict) | defect: intended property refuted (C48_wrong_label); proved for tables in label order (C48_sorted); C48_labels states the actual labelling |
| C49 | Minimum data and number of results | proved | `C49_predicted`, `C49_count`, `C49_minimum` (MultiPredict) |  |
| C50 | Sliding windows stay inside the data | proved | `C50_samples`, `C50_inference` (MultiFit) |  |
| C51 | Dynamic threshold window | proved | `C51_threshold`, `C51_misaligned` (MultiPredict) | defect: intended property refuted (C51_misaligned); C51_threshold states the actual window |
| C52 | Hard thresholds | proved | `C52_hard` (MultiPredict) |  |
| C53 | Severity range | proved | `C53_severity` (MultiPredict) | uses the law exp(1) <= np.e |
| C54 | Interpretation lists every variable once, by contribution | proved | `C54_variables`, `C54_order` (MultiInterp) |  |
| C55 | Correlation changes | proved | `C55_changes` (MultiInterp) |  |
| C56 | Attention rows are distributions | proved | `C56_attention` (MultiInterp) |  |
| C57 | Batch size does not matter for inference | proved | `C57_batch_size` (MultiCalls) | exact arithmetic: float32 kernels that give different roundings for different batch shapes are outside the model |
| C58 | Fit keeps the best epoch | proved | `C58_best_epoch`, `C58_unique`, `C58_exists`, `C58_no_epochs` (MultiFit) | defect: intended property refuted when no epoch has a loss below infinity (C58_best_epoch second case, C58_no_epochs); proved otherwise. C58_unique and C58_exists: the best epoch is well defined. |
| C59 | Normalisation range | proved | `C59_samples`, `C59_training`, `C59_inference` (MultiFit) |  |
| C60 | A multivariate params dict can be reused | proved | `C60_consumed`, `C60_second_call`, `C60_not_reusable` (MultiCalls) | defect: intended property refuted (C60_not_reusable); C60_consumed and C60_second_call state the actual behaviour |
| C61 | Predict needs a trained model | proved | `C61_untrained`, `C61_no_threshold` (MultiPredict) |  |
| C62 | Variable weights | proved | `C62_weights`, `C62_range` (MultiWeights) | weights that a fit without a finite epoch loss leaves come from the stale checkpoint (C58); C62_range covers them |
| C63 | Loss average | proved | `C63_average`, `C63_no_validation` (MultiFit) | losses that are infinite in some batch are not described beyond the model's float addition |
| C64 | Train and validation data are disjoint | proved | `C64_split`, `C64_default`, `C64_rounded`, `C64_short` (MultiFit) |  |
| C65 | Microsecond interval | proved | `C65_microsecond_interval_false`, `C65_microsecond_interval_near`, `C65_grid`, `C65_lost_milliseconds` (Dates); `C65_accepted` (Gate) | defect: intended property refuted; the actual step and grid are proved |
| C66 | Validation cannot be bypassed | proved | `C66_indices_bypass` (Calls) | defect: intended property refuted. Counterexample. |
| C67 | Unknown parameters have no influence | proved | `C67_unknown_keys` (Calls) | imputeMode='fixed' on a series with gaps is outside the quantifier (not modelled). |
| C68 | Score and sensitivity agree | proved | `C68_reported_iff_score`, `C68_sensitivity_zero` (Score) |  |
| C69 | Saved models are usable | proved | `C69_saved_threshold`, `C69_unusable` (MultiCalls) | defect: intended property refuted |
| C70 | Parameters of a prediction | proved | `C70_predict_params` (MultiCalls) |  |
| C71 | An epoch visits every sample once | proved | `C71_epoch` (MultiFit) |  |
| C72 | Training changes the network | proved | `C72_untrained_network`, `C72_fit` (MultiFit) | defect: intended property refuted |
| C73 | Trained threshold | proved | `C73_threshold`, `C73_default` (MultiTotal) | Scores are those of the trained network and normalisation over the imputed, sorted training rows. |
| C74 | When predict answers | proved | `C74_answers` (MultiTotal) | Without an epoch loss below infinity fit keeps no network of its own (see C58), so the theorem asks for one. |
| C75 | A failed fit keeps the old detector | proved | `C75_failed_fit` (MultiTotal) | defect: intended property refuted by a concrete run. |
| C76 | Windows shorter than the kernel | proved | `C76_short_window` (MultiTotal) |  |
| C77 | ESD detector | proved | `C77_majority`, `C77_esd` (Detectors) | The critical value function and the normal quantile are environment functions. |
| C78 | z-score detector | proved | `C78_zscore`, `C78_side` (Detectors) | C78_side assumes the square root is accurate to a factor of two. |
| C79 | What the threshold models flag | proved | `C79_budget` (Count); `C79_dynamic_threshold`, `C79_seasonal`, `C79_rows`, `C79_seasonal_rows` (Detectors) | STL decomposition is an environment function. |
| C80 | What the spectral residual model flags | proved | `C80_flagged`, `C80_score`, `C80_latest` (Detectors) | The spectral residual transform and quantiles are environment functions. |
| C81 | Calendar period | proved | `C81_guesses`, `C81_simple`, `C81_rejected_period` (Simple) | defect: intended property refuted (C81_rejected_period); C81_simple is the actual rule. |
| C82 | Detected period | proved | `C82_spectrum`, `C82_reported_period` (Simple) | imputeMode='fixed' on a series with gaps is outside the quantifier (not modelled). |
| C83 | What the second pass on differences reports | proved | `C83_second_values` (Delta) |  |
| C84 | Seasonal decomposition | proved | `C84_additive`, `C84_log_domain`, `C84_log_fit`, `C84_adjust` (Lib) | the STL routine itself is a parameter |
| C85 | Trend of a series without period | proved | `C85_guessed_period`, `C85_trend` (Lib) | filters and periodogram are parameters; float32 overflow of the broad trend is an oracle answer |
| C86 | Spectral residual amplitude | proved | `C86_amplitude` (Lib); `C86_log_form`, `C86_comment`, `C86_scale`, `C86_scale_zero` (LibReal) | defect: intended property refuted (scale invariance fails when a magnitude is zero) |
| C87 | Critical values of the ESD test | proved | `C87_table`, `C87_default` (Lib); `C87_formula`, `C87_alpha`, `C87_nonfinite` (LibReal) | formula over the real numbers; quantile function a parameter |
| C88 | Share of the fullest histogram bin | proved | `C88_histogram` (Lib) | bins by exact arithmetic |
| C89 | Validation loss | proved | `C89_loss`, `C89_epoch`, `C89_sign` (MultiLoss) | the environment evaluates the loss exactly (MEnv.Exact), shown to be satisfiable |
| C90 | Every fill method keeps what was observed | proved | `C90_shape`, `C90_ends`, `C90_overwritten`, `C90_hang` (FillMethods) | defect: 'spline_seg' that goes on after an error can overwrite an observation (C90_overwritten) or loop forever (C90_hang) |
| C91 | Fill methods stay within the observed range | proved | `C91_range` (FillMethods) |  |
| C92 | Filling from the nearest observations | proved | `C92_values`, `C92_filled` (FillValues) |  |
| C93 | Weights belong to places next to the gap | proved | `C93_weighted`, `C93_returns` (FillValues) |  |
| C94 | Strict filling | proved | `C94_none`, `C94_raise` (FillPolicy) |  |
| C95 | Linear interpolation gap by gap | proved | `C95_linear` (FillPolicy) |  |
| C96 | Error policies of fill_up | proved | `C96_absorbs`, `C96_spline`, `C96_no_gaps`, `C96_options` (FillPolicy) | defect: 'fill_with_last' calls __step_by_step_fill_up without if_exception |
| C97 | Reports on gaps | proved | `C97_indices`, `C97_segments`, `C97_no_gaps` (FillPolicy) | defect: AttributeError without gaps |
| C98 | Imputation of predict as calls of fill_up | proved | `C98_on_demand`, `C98_large_gaps` (FillAgree) | ties the model of the calls predict makes to the model of all calls |
| C99 | Pattern of a period | proved | `C99_pattern`, `C99_unit`, `C99_monotone` (Pattern) | 48 weeks count as a year and 28 days as a month |
| C100 | Least squares line | proved | `C100_best`, `C100_undetermined` (Extra) | sums are exact in the model; in floats equal abscissae need not cancel |
| C101 | Straight series | proved | `C101_straight`, `C101_short`, `C101_shift`, `C101_empty` (Extra) |  |
| C102 | Threshold detector | proved | `C102_detect`, `C102_bounds` (Extra) |  |
| C103 | Histogram-based detection | proved | `C103_rows`, `C103_seasonal`, `C103_nonseasonal`, `C103_refused` (Extra) | defect: no direction columns without an anomaly; the nonseasonal expected values always include the anomalies. detect_model.py imports the module from a package that does not exist, so the public API cannot reach it |
| C104 | Time strings | proved | `C104_read`, `C104_instant`, `C104_round_trip` (Extra) | assumes dateutil.parser.parse reads back the two formats (TimeLib.WF) |
| C105 | Reading dates | proved | `C105_sound`, `C105_complete`, `C105_refused`, `C105_never_read`, `C105_column`, `C105_mixed`, `C105_epoch`, `C105_round_trip` (DateFormat) | defect: the formats of MM/DD/YYYY and YYYYMMDD are not those of their shapes and the offset has no %z, so these three never parse. Nothing in the package calls these functions |
| C106 | Detection from collected forecasts | proved | `C106_results`, `C106_severity`, `C106_peak`, `C106_long`, `C106_weights`, `C106_zero`, `C106_blend` (MultiResults) | nothing in the package calls these functions |
| C107 | What the forecasting network computes | proved | `C107_network`, `C107_accepts`, `C107_ranges`, `C107_peak`, `C107_hidden`, `C107_outputs` (MultiNet) | matrix products are exact; the range of hidden states assumes |tanh| <= 1 |
| C108 | Margins and flags in floating point | proved | `C108_exact`, `C108_computed`, `C108_near`, `C108_points`, `C108_monotone`, `C108_full`, `C108_band`, `C108_outside` (FloatMargins) | defect: in doubles a normal point can lie outside of its band (C108_outside). The frame itself is any list of rows of floats |
| C109 | Growing tables (multivariate) | proved | `C109_local`, `C109_prefix`, `C109_suffix`, `C109_grow`, `C109_linear` (Streaming) | defect: with linear filling later rows change earlier results (C109_linear) |
| C110 | Moving a series in time (univariate) | proved | `C110_unused`, `C110_shift`, `C110_steps`, `C110_subsecond` (Shift) | defect: a shift by a fraction of a second can turn an answer into an error (C110_subsecond) |
| C111 | Names of variables only label the answer | proved | `C111_predict`, `C111_fit`, `C111_order` (Rename) | defect: a table with other variables than those of the training is answered (C111_predict) |
| C112 | Tables without change | proved | `C112_constant`, `C112_all_anomalies` (Uniform) | defect: rows without any change can all be anomalies, with severity 0 (C112_all_anomalies) |
| C113 | A column called timestamp | proved | `C113_timestamp`, `C113_refused` (Rename) | defect: fit fails on tables with a timestamp column (C113_timestamp, C113_refused) |
| C114 | What the fusion of the detectors flags | proved | `C114_threshold`, `C114_seasonal` (Latest) |  |
| C115 | The latest point in the two modes | proved | `C115_threshold`, `C115_seasonal`, `C115_modes`, `C115_majority`, `C115_crowded` (Latest) | defect: LATEST mode misses latest points that ENTIRE mode reports (C115_majority); in the seasonal model it flags points that ENTIRE mode does not (C115_crowded) |
| C116 | NaN as maxAnomalyRatio | proved | `C116_nan` (NanRatio) | defect: NaN passes the ratio check and ends in a ValueError (C116_nan) |
| C117 | Which requests are answered | proved | `C117_detected`, `C117_unseasonal`, `C117_seasonal`, `C117_too_long`, `C117_collision`, `C117_ratio_limit` (Answered); `C117_library` (AnsweredLib) | defect: a period that is too long and timestamps that share a grid position end in a ValueError instead of an error code (C117_too_long, C117_collision); the ratio limit 0.49 admits requests whose whole trend is wiped (C117_ratio_limit) |
| C118 | Options that ask for more output | proved | `C118_no_effect`, `C118_spectrum`, `C118_unseasonal`, `C118_spectrum_raises`, `C118_found_raises` (Options) | defect: the options needDetectorId, needFillUpConfirm and needSpectrumPeriod are accepted but nothing they ask for is returned; needSpectrumPeriod can make a request fail (C118_spectrum_raises) |
| C119 | Training | proved | `C119_forward`, `C119_accepts`, `C119_centred` (MultiTrain); `C119_laws`, `C119_step`, `C119_stored`, `C119_random` (MultiTrained) |  |
| C120 | Parameters that training does not read | proved | `C120_unread`, `C120_weights` (MultiUnread) | defect: the parameters dropout and gamma are accepted and have no influence |
| C121 | How a training ends | proved | `C121_prepared`, `C121_no_rows`, `C121_early`, `C121_late`, `C121_no_best` (MultiOutcome) | defect: batch_size 1 is accepted and always fails; a fit that fails after its epochs leaves the new network beside the old threshold |
| C122 | How predict ends when the table does not fit | proved | `C122_ends` (MultiEnds) | defect: the number of columns is never compared with that of the training table |
| C123 | Adding a constant to a variable changes nothing | proved | `C123_offset`, `C123_calm` (MultiOffset) |  |
| C124 | Training starts afresh, and asking leaves no trace | proved | `C124_afresh`, `C124_no_trace`, `C124_unasked`, `C124_answers` (MultiForget) |  |
| C125 | Options of a model that is not used have no influence | proved | `C125_threshold`, `C125_alpha`, `C125_threshold_used`, `C125_alpha_used` (Unused) |  |
| C126 | The unit of time | proved | `C126_step`, `C126_minutes`, `C126_window`, `C126_guess` (Units) | defect: intended property refuted (C126_window, C126_guess). Proved: where the unit does not matter. |
| C127 | Raising level never adds anomalies | proved | `C127_level`, `C127_weights` (MultiLevel) |  |
| C128 | horizon moves the targets of training only | proved | `C128_horizon`, `C128_targets` (MultiHorizon) | defect: intended property refuted (C128_targets): a network trained for the row horizon places ahead is validated, calibrated and used for the next row |
| C129 | Labels of the rows count by their order only | proved | `C129_labels`, `C129_state` (Labels) | labels of a table have to be distinct: the order in which sort_index leaves rows with equal labels is not specified |
| C130 | Raising maxAnomalyRatio: what the three models keep | proved | `C130_raise`, `C130_dynamic` (Ratio); `C130_limit`, `C130_stationary`, `C130_latest`, `C130_share`, `C130_seasonal` (RatioModels) | defect: a larger maxAnomalyRatio can remove anomalies with the dynamic threshold model (C130_dynamic) and with the seasonal model (C130_seasonal), for library behaviours that satisfy the laws of the trusted base. The positive parts are C130_raise (spectral residual model), C130_stationary and C130_latest (dynamic threshold model, stationary series; C130_latest assumes that the share of the fullest histogram bin is at most 1, which C88_histogram shows for Lib.env), C130_limit and C130_share (seasonal model). |
| C131 | More epochs keep the same model or a strictly better one | proved | `C131_epochs` (MultiEpochs) | the environment is one built from the parts of a training library (TrainEnv), as in C119 and C120 |
| C132 | Raising threshold can add an anomaly | proved | `C132_threshold` (Threshold) | defect: intended property refuted (C132_threshold, for a library behaviour that satisfies the laws of the trusted base) |
| C133 | A series turned upside down | proved | `C133_mirror`, `C133_cut_off` (Mirror); `C133_library` (MirrorLib) | defect: lower V1 boundaries that all lie below the data are not cut off, upper ones are (C133_cut_off). C133_mirror assumes the symmetry laws Mirror of the library; C133_library derives those about the code's own fit_trend and spectral residual transform from laws of the third-party functions (LibMirror) |
| C134 | The choice of a boundary version | proved | `C134_same`, `C134_versions`, `C134_found`, `C134_flags`, `C134_raises` (Versions) | C134_flags and C134_raises show what the version can change |
| C135 | The unit of the values | proved | `C135_unit`, `C135_boundary_unit`, `C135_tiny` (Scaled) | defect: the least unit of V2 boundaries is 0.3 whatever the unit of the data (C135_boundary_unit), and very small numbers can lose their anomalies (C135_tiny). C135_unit assumes the laws Scale of the library; its transform law is asked only of the lists that the transform is applied to, since C86_scale_zero refutes it for lists with a vanishing frequency |
| C136 | The unit of a variable | proved | `C136_inputs`, `C136_volatile`, `C136_tiny` (MultiUnit) | defect: intended property refuted (C136_volatile, C136_tiny, for a training library that satisfies the laws of the trusted base). C136_inputs bounds what the network sees of the unit |
| C137 | The scale and the zero point of the values | proved | `C137_degrees`, `C137_unit`, `C137_zero` (Degrees); `C137_library` (DegreesLib) | defect: V1 margins are a share of the expected value, so the answer depends on where zero is (C137_zero, for a library behaviour that satisfies the laws of the trusted base). C137_degrees and C137_unit assume the laws Degrees; C137_library derives them from laws of the third-party functions (LibDegrees) |
| C138 | Raising alpha | proved | `C138_limit`, `C138_alpha`, `C138_share`, `C138_differences`, `C138_seasonal` (Alpha); `C138_library` (AlphaLib) | defect: a higher alpha can lose an anomaly (C138_differences, C138_seasonal, for library behaviours that satisfy the laws of the trusted base). C138_alpha, C138_limit and C138_share assume that no critical value is greater for the second alpha (NotStricter); C138_library derives that for two values away from 0.05 from laws of the quantile function, the square root and the rounding to single precision |
