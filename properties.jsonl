{"id": "C01", "title": "Series size gate", "statement": "UnivariateAnomalyDetector.predict never returns a result when the input frame has fewer than 12 or more than 8640 rows; every such call raises.", "quantifier": "every data frame, every params dict, both detect modes, every behaviour of the numerical libraries; params without the undocumented key \"indices\" (see C66)", "why_tests_cant": "Tests try a few lengths; the claim is about every length together with every combination of the other parameters, and depends on which exception path is hit first.", "anchors": ["src/anomaly_detector/univariate/univariate_anomaly_detection.py:series_validator", "src/anomaly_detector/univariate/univariate_anomaly_detection.py:parse_arg", "src/anomaly_detector/univariate/univariate_anomaly_detection.py:predict"]}
{"id": "C02", "title": "Series value gate", "statement": "predict never returns a result when some value is NaN, infinite, of magnitude above 1e100, or not convertible to a float.", "quantifier": "every data frame and params dict; params without the undocumented key \"indices\" (see C66)", "why_tests_cant": "A single bad value can occur at any position in a series of up to 8640 points, next to any other parameter combination.", "anchors": ["src/anomaly_detector/univariate/univariate_anomaly_detection.py:series_validator", "src/anomaly_detector/univariate/univariate_anomaly_detection.py:predict"]}
{"id": "C03", "title": "Timestamp order gate", "statement": "When a granularity other than 'none' is given, predict never returns a result for timestamps that are not strictly ascending.", "quantifier": "every data frame with timestamps, every granularity other than none; params without the undocumented key \"indices\" (see C66)", "why_tests_cant": "Order violations can occur between any pair of positions.", "anchors": ["src/anomaly_detector/univariate/univariate_anomaly_detection.py:is_timestamp_ascending", "src/anomaly_detector/univariate/univariate_anomaly_detection.py:series_validator"]}
{"id": "C04", "title": "Grid alignment gate", "statement": "When predict returns with a fixed-length granularity (weekly, daily, hourly, minutely, secondly) and timestamps of whole seconds between 1824 and 2116, every timestamp lies a whole number of customInterval steps after the first one; for any other instants in the 64 bit nanosecond range it lies within 20 microseconds of such a place. For monthly or yearly it lies a whole number of (customInterval) months or years after the first in the calendar sense.", "quantifier": "every data frame whose parsed timestamps are valid civil dates read in one time zone, granularity, customInterval; params without \"indices\" (C66)", "why_tests_cant": "Alignment is an arithmetic relation over unbounded time differences.", "anchors": ["src/anomaly_detector/univariate/univariate_anomaly_detection.py:series_validator", "src/anomaly_detector/univariate/util/helpers.py:get_indices_from_timestamps", "src/anomaly_detector/univariate/util/date_utils.py:get_date_difference"]}
{"id": "C05", "title": "Timestamp to index map is exact", "statement": "Intended: for accepted timestamps the computed position of each point is exactly (elapsed time)/(granularity x customInterval). Actual: this holds for whole seconds between 1824 and 2116 (computed through doubles), where the first point is 0, positions are strictly increasing for fixed-length granularities and the reported first invalid index is the first timestamp that is off the grid. Other instants get the right position up to 20 microseconds: two stamps 1 ns apart get the same position, and stamps exactly one hour apart in January 2004 or one second apart in 2128 are refused. For monthly and yearly the positions are exact, and the reported index is off the grid but need not be the first one.", "quantifier": "every list of timestamps in the 64 bit nanosecond range, granularity, interval", "why_tests_cant": "The map must be exact for every gap pattern; tests sample a few calendars.", "anchors": ["src/anomaly_detector/univariate/util/helpers.py:get_indices_from_timestamps", "src/anomaly_detector/univariate/util/helpers.py:get_second_by_granularity"]}
{"id": "C06", "title": "Calendar difference", "statement": "get_date_difference(a,b) is antisymmetric in sign, its months lie in -11..11, its years*12+months is the exact calendar month distance (minus one only when a day remainder is reported), and it reports days = 0 exactly for same-day-of-month dates or dates aligned at month end.", "quantifier": "all pairs of valid dates", "why_tests_cant": "Leap years and month lengths give a case explosion; the claim is over all date pairs.", "anchors": ["src/anomaly_detector/univariate/util/date_utils.py:get_date_difference"]}
{"id": "C07", "title": "Parameter gates", "statement": "predict never returns a result when granularity, customInterval, period, alpha, maxAnomalyRatio, sensitivity, threshold, imputeMode, imputeFixedValue, boundaryVersion or, when imputeMode is absent, fillUpMode or fixedValue is outside its domain. Two limits of the code: alpha may be NaN or +inf, and fillUpMode is not checked at all when imputeMode is given. A NaN maxAnomalyRatio passes the gate but never yields a result. Conversely admissible parameters with a valid series and no explicit detector pass validation.", "quantifier": "every params dict and data frame; for the NaN ratio part: params without the key \"indices\" (C66); either the series has no gaps, or imputeMode is not 'fixed' and fixedValue is finite (with gaps, imputeMode='fixed' puts None into the series, C30, which is not modelled)", "why_tests_cant": "Domain of arbitrary Python values in eleven parameters.", "anchors": ["src/anomaly_detector/univariate/univariate_anomaly_detection.py:parse_arg"]}
{"id": "C08", "title": "Rejected requests are reported as AnomalyDetectionRequestError", "statement": "Intended: a request rejected by validation raises AnomalyDetectionRequestError with the documented code. Actual: validation never raises it; AnomalyDetectionRequestError is only raised for requests that pass validation. A non-empty frame with an inadmissible parameter raises TypeError, and a series rejected for its length or values raises KeyError; the documented code of the first failed check is only stored in the detector's error_code. A granularity that is a list or a dict raises TypeError too, without an error_code and with params as they were.", "quantifier": "every invalid request without \"indices\" in params; for the exact exception: hashable granularity and boundaryVersion, and for series failures admissible params and no detector dict", "why_tests_cant": "The exception type must hold for every rejection path.", "anchors": ["src/anomaly_detector/univariate/univariate_anomaly_detection.py:predict", "src/anomaly_detector/univariate/univariate_anomaly_detection.py:parse_arg", "src/anomaly_detector/common/exception.py:AnomalyDetectionRequestError"]}
{"id": "C09", "title": "A params dict can be used for more than one call", "statement": "Intended: a params dict can be reused. Actual: once predict was called with a dict with an admissible granularity on a non-empty frame, every later call with that dict fails, because the granularity entry was overwritten; no dict ever yields two results.", "quantifier": "every params dict, every pair of data frames, also across detectors", "why_tests_cant": "Needs every history of calls sharing a dict.", "anchors": ["src/anomaly_detector/univariate/univariate_anomaly_detection.py:parse_arg"]}
{"id": "C10", "title": "Detect mode of a detector is fixed by construction or by the first call", "statement": "A detector built with a mode always uses it; one built without a mode uses the mode in params of its first call that passes parsing for all later calls, whatever later params say.", "quantifier": "every history of predict calls on one detector object", "why_tests_cant": "Quantifies over call histories.", "anchors": ["src/anomaly_detector/univariate/univariate_anomaly_detection.py:predict", "src/anomaly_detector/univariate/univariate_anomaly_detection.py:EntireAnomalyDetector", "src/anomaly_detector/univariate/univariate_anomaly_detection.py:LatestAnomalyDetector"]}
{"id": "C11", "title": "Calls do not influence each other", "statement": "Apart from the detect mode latch, the outcome of a predict call on a detector does not depend on earlier calls, including failed ones.", "quantifier": "every history of predict calls", "why_tests_cant": "Quantifies over call histories.", "anchors": ["src/anomaly_detector/univariate/univariate_anomaly_detection.py:predict"]}
{"id": "C12", "title": "Entire mode answers every point in order", "statement": "In ENTIRE mode a successful predict returns exactly one item per input row, in input order, carrying that row's timestamp (or row number when there is no timestamp column), whatever gaps were filled up internally.", "quantifier": "every input, every gap pattern, granularity; params without the key \"indices\" (C66); either the series has no gaps, or imputeMode is not 'fixed' and fixedValue is finite (with gaps, imputeMode='fixed' puts None into the series, C30, which is not modelled)", "why_tests_cant": "Gap filling inserts and later removes rows; correctness is over every gap pattern.", "anchors": ["src/anomaly_detector/univariate/univariate_anomaly_detection.py:predict", "src/anomaly_detector/univariate/model/detect_model.py:AnomalyDetectionModel.detect", "src/anomaly_detector/univariate/filling_up/fill_up.py:FillingUpProcess"]}
{"id": "C13", "title": "Latest mode answers the last point", "statement": "In LATEST mode a successful predict returns exactly one item, carrying the last row's timestamp, and its flags and margins refer to the last row's value.", "quantifier": "every input, every gap pattern; params without the key \"indices\" (C66); either the series has no gaps, or imputeMode is not 'fixed' and fixedValue is finite (with gaps, imputeMode='fixed' puts None into the series, C30, which is not modelled)", "why_tests_cant": "As above.", "anchors": ["src/anomaly_detector/univariate/univariate_anomaly_detection.py:predict", "src/anomaly_detector/univariate/util/refine.py:get_margins"]}
{"id": "C14", "title": "Anomaly flags are consistent", "statement": "In every returned item is_anomaly is true exactly when one of is_positive_anomaly and is_negative_anomaly is true, and never are both true.", "quantifier": "every successful predict call, every library behaviour; params without the key \"indices\" (C66); either the series has no gaps, or imputeMode is not 'fixed' and fixedValue is finite (with gaps, imputeMode='fixed' puts None into the series, C30, which is not modelled)", "why_tests_cant": "Flags are produced by four models, merged with a second pass on differenced data and refined by margins.", "anchors": ["src/anomaly_detector/univariate/util/refine.py", "src/anomaly_detector/univariate/model/detect_model.py:merge_with_delta", "src/anomaly_detector/univariate/model/dynamic_threshold.py:modify_anomaly_status"]}
{"id": "C15", "title": "Anomaly direction agrees with the value, except for a latest point without reference", "statement": "Intended: in every returned item is_positive_anomaly implies value > expected_value and is_negative_anomaly implies value < expected_value. Actual: this holds in ENTIRE mode. In LATEST mode a negative anomaly lies below its expected value, and a positive anomaly lies above it or is reported with expected value 0. The exception needs a request answered by the spectral residual model in which no score is at most 1; its last point has no reference value, is reported with expected value 0, and if flagged always counts as positive, also when the value is negative. If the first spectral magnitude is never within 1e-13 above 2e-8 the exception does not occur.", "quantifier": "every successful predict call; params without the key \"indices\" (C66); either the series has no gaps, or imputeMode is not 'fixed' and fixedValue is finite (with gaps, imputeMode='fixed' puts None into the series, C30, which is not modelled)", "why_tests_cant": "As above.", "anchors": ["src/anomaly_detector/univariate/util/refine.py", "src/anomaly_detector/univariate/model/detect_model.py:correct_anomaly_direction"]}
{"id": "C16", "title": "The band separates anomalies from normal points", "statement": "In every returned item is_anomaly is false exactly when expected_value - lower_margin <= value <= expected_value + upper_margin.", "quantifier": "every successful predict call, every sensitivity, both boundary versions, exact arithmetic; params without the key \"indices\" (C66); either the series has no gaps, or imputeMode is not 'fixed' and fixedValue is finite (with gaps, imputeMode='fixed' puts None into the series, C30, which is not modelled)", "why_tests_cant": "The margins are clipped, widened and zeroed in several passes; the claim is for all values.", "anchors": ["src/anomaly_detector/univariate/util/refine.py:refine_margins", "src/anomaly_detector/univariate/util/refine.py:get_margins_v2", "src/anomaly_detector/univariate/util/boundary_utils.py:calculate_margin"]}
{"id": "C17", "title": "Margins are never negative", "statement": "In every returned item upper_margin >= 0 and lower_margin >= 0.", "quantifier": "every successful predict call; params without the key \"indices\" (C66); either the series has no gaps, or imputeMode is not 'fixed' and fixedValue is finite (with gaps, imputeMode='fixed' puts None into the series, C30, which is not modelled)", "why_tests_cant": "As above.", "anchors": ["src/anomaly_detector/univariate/util/refine.py", "src/anomaly_detector/univariate/util/boundary_utils.py"]}
{"id": "C18", "title": "Sensitivity is monotone", "statement": "For the same request, raising sensitivity never removes a reported anomaly.", "quantifier": "every request, every pair of sensitivities in 0..100, both boundary versions; params without the key \"indices\" (C66); either the series has no gaps, or imputeMode is not 'fixed' and fixedValue is finite (with gaps, imputeMode='fixed' puts None into the series, C30, which is not modelled)", "why_tests_cant": "Compares two runs for all data and all 101 x 101 sensitivity pairs.", "anchors": ["src/anomaly_detector/univariate/util/refine.py", "src/anomaly_detector/univariate/util/boundary_utils.py:factors"]}
{"id": "C19", "title": "Sensitivity 100 reports everything the detector flagged", "statement": "With sensitivity 100 the reported anomalies are exactly the points flagged by the detection model whose value differs from the expected value by at least 1e-8.", "quantifier": "every request; params without the key \"indices\" (C66); either the series has no gaps, or imputeMode is not 'fixed' and fixedValue is finite (with gaps, imputeMode='fixed' puts None into the series, C30, which is not modelled)", "why_tests_cant": "Quantifies over all data and model outputs.", "anchors": ["src/anomaly_detector/univariate/util/refine.py:refine_margins", "src/anomaly_detector/univariate/model/detect_model.py:AnomalyDetectionModel.detect"]}
{"id": "C20", "title": "Number of anomalies is bounded by maxAnomalyRatio", "statement": "Intended: at most max(ceil(N*maxAnomalyRatio),1) points are reported in ENTIRE mode (N = number of points after gap filling). Actual: the ratio bounds each direction separately, and the second pass on differences turns its remaining budget k into the ratio k/N and multiplies it out again in doubles, which can give k+1 (7 of 25 points become 8); at most 2*max(ceil(N*maxAnomalyRatio),1)+1 points are reported, with the exact product, and the bound max(ceil(N*ratio),1) on the total does not hold.", "quantifier": "every request in ENTIRE mode whose ratio is a double; params without the key \"indices\" (C66); either the series has no gaps, or imputeMode is not 'fixed' and fixedValue is finite (with gaps, imputeMode='fixed' puts None into the series, C30, which is not modelled)", "why_tests_cant": "The cap is applied per direction, per detector and again after a second pass.", "anchors": ["src/anomaly_detector/univariate/model/detect.py:detect", "src/anomaly_detector/univariate/model/detect_model.py:merge_with_delta", "src/anomaly_detector/univariate/model/spectral_residual_model.py"]}
{"id": "C21", "title": "Points equal to their expectation are never anomalies", "statement": "A point whose value is within 1e-8 of its expected value is never reported as an anomaly.", "quantifier": "every request; params without the key \"indices\" (C66); either the series has no gaps, or imputeMode is not 'fixed' and fixedValue is finite (with gaps, imputeMode='fixed' puts None into the series, C30, which is not modelled)", "why_tests_cant": "All values.", "anchors": ["src/anomaly_detector/univariate/model/detect_model.py:AnomalyDetectionModel.detect"]}
{"id": "C22", "title": "Reported period", "statement": "If params gives a period, a successful result reports exactly that period; otherwise the reported period is 0 or the (gap-filled) series contains more than two periods.", "quantifier": "every request; params without the key \"indices\" (C66); either the series has no gaps, or imputeMode is not 'fixed' and fixedValue is finite (with gaps, imputeMode='fixed' puts None into the series, C30, which is not modelled)", "why_tests_cant": "Depends on period search loops over all data.", "anchors": ["src/anomaly_detector/univariate/model/detect_model.py", "src/anomaly_detector/univariate/period/period_detect.py", "src/anomaly_detector/univariate/period/simple.py", "src/anomaly_detector/univariate/period/spectrum.py"]}
{"id": "C23", "title": "Suggested window", "statement": "In LATEST mode suggested_window is 4*period+1 when the period is nonzero and the granularity's default window plus one otherwise; it is always positive.", "quantifier": "every request; params without the key \"indices\" (C66); either the series has no gaps, or imputeMode is not 'fixed' and fixedValue is finite (with gaps, imputeMode='fixed' puts None into the series, C30, which is not modelled)", "why_tests_cant": "All periods and granularities.", "anchors": ["src/anomaly_detector/univariate/univariate_anomaly_detection.py:predict", "src/anomaly_detector/univariate/util/enum.py:default_gran_window"]}
{"id": "C24", "title": "Explicit detector choice works", "statement": "Intended: a request naming a supported detector can succeed. Actual: it never returns a result, except for the name 'hbos' when numpy.histogram fails on the values of the series.", "quantifier": "every request with a detector dict; params without the key \"indices\" (C66); either the series has no gaps, or imputeMode is not 'fixed' and fixedValue is finite (with gaps, imputeMode='fixed' puts None into the series, C30, which is not modelled)", "why_tests_cant": "The failure is on every path, whatever the data.", "anchors": ["src/anomaly_detector/univariate/model/detect_model.py:AnomalyDetectionModel.detect"]}
{"id": "C25", "title": "Imputation keeps observed points", "statement": "Filling gaps keeps every observed value at its own position, tags exactly the missing positions as filled, and returns one value per grid position.", "quantifier": "every gap pattern, every fill method", "why_tests_cant": "All gap patterns.", "anchors": ["src/anomaly_detector/univariate/filling_up/fill_up.py:FillingUpProcess"]}
{"id": "C26", "title": "Imputation values per mode", "statement": "Filled values are: the last observed value before the gap ('previous'/'last'), the given constant ('fixed'/'zero'), the straight line between the neighbouring observed points ('linear').", "quantifier": "every gap pattern and value", "why_tests_cant": "All gap patterns.", "anchors": ["src/anomaly_detector/univariate/filling_up/fill_up.py", "src/anomaly_detector/univariate/filling_up/fill_up_methods.py", "src/anomaly_detector/univariate/model/series_compete_processor.py:fill_up_on_demand"]}
{"id": "C27", "title": "Automatic imputation stays within the observed range", "statement": "In 'auto' mode every filled value lies between the minimum and maximum observed value and no position is left empty.", "quantifier": "every gap pattern, period, and spline behaviour", "why_tests_cant": "Three fill passes with data dependent gaps.", "anchors": ["src/anomaly_detector/univariate/filling_up/fill_up.py:FillingUpProcess.__auto_fill_up", "src/anomaly_detector/univariate/filling_up/fill_up_methods.py:_get_periodical_values"]}
{"id": "C28", "title": "Too sparse seasonal requests are rejected", "statement": "With a period > 1 requested and more than half of the grid positions missing, predict raises AnomalyDetectionRequestError with code InvalidSeries; without a requested period such a series is analysed as non-seasonal (period 0).", "quantifier": "every gap pattern whose grid positions ascend from 0 (C05); first part: no detector dict; second part: params without the key \"indices\" (C66); either the series has no gaps, or imputeMode is not 'fixed' and fixedValue is finite (with gaps, imputeMode='fixed' puts None into the series, C30, which is not modelled)", "why_tests_cant": "All gap patterns.", "anchors": ["src/anomaly_detector/univariate/model/detect_model.py"]}
{"id": "C29", "title": "Fill-up cap never blocks a seasonal request", "statement": "For an accepted series (at most 8640 points) whose missing ratio is at most one half, gap filling is never skipped because of the maximum fill-up length.", "quantifier": "every accepted series; for whole requests: params without the key \"indices\" (C66); either the series has no gaps, or imputeMode is not 'fixed' and fixedValue is finite (with gaps, imputeMode='fixed' puts None into the series, C30, which is not modelled)", "why_tests_cant": "Arithmetic relation over all gap patterns.", "anchors": ["src/anomaly_detector/univariate/filling_up/fill_up.py:FillingUpProcess.__init__", "src/anomaly_detector/univariate/util/fields.py:DEFAULT_MAXIMUM_FILLUP_LENGTH"]}
{"id": "C30", "title": "Requested imputation is applied", "statement": "Intended: imputeMode='fixed' fills gaps with imputeFixedValue, and fillUpMode='zero' fills gaps with 0. Actual: imputeFixedValue is checked to be a number but has no influence on the outcome of any request; fillUpMode='zero' fills nothing; imputeMode='zero' fills with 0 and fillUpMode='fixed' with fixedValue. A valid request with imputeMode 'fixed' on a series with gaps (at most half of the grid missing) and without a period raises TypeError, because the gaps become None and the period detector takes the minimum of the series.", "quantifier": "imputeFixedValue: every request, every detector, every pair of numbers. The TypeError: every request that passes all checks of parameters and series, rows at different grid positions. The rest: every answered request; params without the key \"indices\" (C66), fixedValue finite", "why_tests_cant": "All requests.", "anchors": ["src/anomaly_detector/univariate/univariate_anomaly_detection.py:parse_arg", "src/anomaly_detector/univariate/model/series_compete_processor.py:fill_up_on_demand"]}
{"id": "C31", "title": "Auto-detected periods never fail the two-period check", "statement": "When the period is detected automatically the seasonal model never raises 'needs at least 2 periods worth of data'.", "quantifier": "every series, every library behaviour", "why_tests_cant": "Period product loop over all data.", "anchors": ["src/anomaly_detector/univariate/period/spectrum.py:SpectrumDetector.detect", "src/anomaly_detector/univariate/period/simple.py:SimpleDetector.verify_period", "src/anomaly_detector/univariate/model/seasonal_series.py:detect_ts"]}
{"id": "C32", "title": "Boundary units are bounded below", "statement": "Boundary units computed for V2 boundaries are at least 0.3 for every trend and every anomaly pattern, so the margin computation never raises for a sensitivity in 0..100.", "quantifier": "every trend and flag vector", "why_tests_cant": "All vectors.", "anchors": ["src/anomaly_detector/univariate/util/boundary_utils.py:calculate_boundary_units", "src/anomaly_detector/univariate/util/boundary_utils.py:calculate_margin"]}
{"id": "C33", "title": "Anomaly score scale", "statement": "The anomaly score of a point lies in [0,100], is 0 exactly when value equals expectation, and is monotone in |value-expected|/unit; entry s of the factor table is the distance that scores 100-s. The severity lies in [0,1] and is 0 for points that are not reported.", "quantifier": "every value, expectation and unit > 0; severity: every list of rows, sensitivity and boundary version", "why_tests_cant": "Piecewise function over a 101 entry table; all reals.", "anchors": ["src/anomaly_detector/univariate/util/boundary_utils.py:calculate_anomaly_score", "src/anomaly_detector/univariate/util/refine.py:get_margins_v2"]}
{"id": "C34", "title": "Quick select and median", "statement": "quick_select(data, k) returns the k-th smallest value and permutes the array, fast_median returns the median, for every sequence of random pivot choices; the recursion depth is at most len(data) and the result does not depend on the choices.", "quantifier": "every nonempty array, every sequence of random numbers", "why_tests_cant": "All arrays and all random sequences.", "anchors": ["src/anomaly_detector/univariate/_anomaly_kernel_cython.pyx:partition,select,quick_select,fast_median"]}
{"id": "C35", "title": "Sliding median filter", "statement": "Intended: median_filter output at i is the median of the window centred at i (cut off at the ends with need_two_end, unchanged input near the ends without). Actual: this holds except at the end of the array with need_two_end, where it holds for float32-representable data; when a value rounds up to float32 (e.g. 0.1) the last entries are wrong.", "quantifier": "every array, window and float32 rounding; the end of the array: every array of float32 values, and one counterexample family for other data", "why_tests_cant": "Incremental sorted-window maintenance over all inputs.", "anchors": ["src/anomaly_detector/univariate/_anomaly_kernel_cython.pyx:median_filter"]}
{"id": "C36", "title": "Fast MAD", "statement": "For a sorted array the kernel's two-array binary search returns exactly the median of absolute deviations from the median, without out-of-range access, for every suffix.", "quantifier": "every sorted array", "why_tests_cant": "Binary search over all arrays.", "anchors": ["src/anomaly_detector/univariate/_anomaly_kernel_cython.pyx:find_median_sorted_arrays,sorted_median"]}
{"id": "C37", "title": "ESD selection", "statement": "generalized_esd_test and dynamic_threshold never fail and return the ranking up to the last rank below max_outliers whose value is outlying against the median/MAD or mean/std of the values from that rank on; in latest mode they return the ranking up to the first outlying rank at or after the latest point's rank, so the result is empty or contains the latest point.", "quantifier": "every ranking sorted in either direction, max_outliers within its length, every critical value list that covers max_outliers, every monotone float32 rounding", "why_tests_cant": "All inputs.", "anchors": ["src/anomaly_detector/univariate/_anomaly_kernel_cython.pyx:generalized_esd_test,dynamic_threshold"]}
{"id": "C38", "title": "Detector fusion", "statement": "Intended: detect() returns only indices proposed by some detector, at most max_outliers per direction, each index once, preferring points confirmed by earlier detectors. Actual: all of this holds with the priority num_obs*(first proposing detector) + sum of ranks, and for two detectors points of the first always come first; with three detectors a point confirmed by all three can be dropped in favour of one proposed by the second only (the two models never propose so, see C114).", "quantifier": "every list of detectors and duplicate-free proposals; the two-detector preference when neither proposes more than half of the points; one counterexample for three detectors", "why_tests_cant": "All proposals.", "anchors": ["src/anomaly_detector/univariate/model/detect.py:detect"]}
{"id": "C39", "title": "Moving average", "statement": "average_filter(values,n)[i] is the mean of the last min(n,i+1) values up to i, and with fill_to_n it is the mean of n values obtained by padding with the mean of the earlier ones.", "quantifier": "every list, n >= 1, every position", "why_tests_cant": "All lists.", "anchors": ["src/anomaly_detector/univariate/util/helpers.py:average_filter"]}
{"id": "C40", "title": "Seasonal means and leave-one-out error", "statement": "gcv returns for each phase the mean of the values at that phase and, as error, the mean squared leave-one-out error of these means (0 if close to 0), hence nonnegative; max_gcv returns the result of a candidate period with the least error; all candidates the period detectors pass have at least two values per phase, so nothing divides by zero.", "quantifier": "every series (as float32 values, exact accumulation) and every period with at least two cycles", "why_tests_cant": "All series.", "anchors": ["src/anomaly_detector/univariate/_anomaly_kernel_cython.pyx:gcv,max_gcv", "src/anomaly_detector/univariate/period/simple.py", "src/anomaly_detector/univariate/period/spectrum.py"]}
{"id": "C41", "title": "Correlogram search", "statement": "The correlogram peak search terminates. Its candidates are the lags strictly between 4 and the limit (a third of the series length, at most 5760) among the significant peaks of the autocorrelation, in descending order of autocorrelation; the peaks end at the highest remaining lag that is not significant (autocorrelation below 0.1 or below half the confidence width). Candidates are distinct.", "quantifier": "every autocorrelation vector", "why_tests_cant": "Loop termination over all vectors.", "anchors": ["src/anomaly_detector/univariate/period/spectrum.py:SpectrumDetector.correlogram_detector"]}
{"id": "C42", "title": "Spectrum period search terminates", "statement": "Repeated period refinement terminates and the product p of the found factors satisfies 2p < length.", "quantifier": "every series and every library behaviour", "why_tests_cant": "Unbounded loop.", "anchors": ["src/anomaly_detector/univariate/period/spectrum.py:SpectrumDetector.detect"]}
{"id": "C43", "title": "Bucket despiking uses the bucket's MAD", "statement": "Intended: remove_anomaly_in_bucket replaces by the bucket median exactly the values more than 3 scaled MADs above it. Actual: deviations enter with their sign, so for float32 data every value at least 3e-8 above its bucket median is replaced whatever the spread; when the median rounds up to float32 the spread is negative and values below the median are replaced while spikes are kept.", "quantifier": "every array of float32 values, every period, every monotone and odd rounding; counterexamples for the intended property and for rounding", "why_tests_cant": "All arrays.", "anchors": ["src/anomaly_detector/univariate/_anomaly_kernel_cython.pyx:remove_anomaly_in_bucket"]}
{"id": "C44", "title": "Differencing preserves length and is invertible", "statement": "get_delta keeps the series length, returns the differences to the previous value, and fails only on series that are too short; reverse_delta undoes the second difference exactly; the series used for the second detection pass is the original, its first or its second difference.", "quantifier": "every series and difference order", "why_tests_cant": "All series.", "anchors": ["src/anomaly_detector/univariate/util/helpers.py:get_delta,reverse_delta", "src/anomaly_detector/univariate/model/detect_model.py:should_include_delta"]}
{"id": "C45", "title": "The second detection pass only adds anomalies", "statement": "Without a period, the result of a detection step is that of its first pass with some non-anomalies turned into anomalies: anomalies of the first pass keep their row, values never change, and an added point's direction compares its value with its new expected value.", "quantifier": "every series of at least two points, every parameters, every library behaviour satisfying the stated laws", "why_tests_cant": "All series.", "anchors": ["src/anomaly_detector/univariate/model/detect_model.py:merge_with_delta"]}
{"id": "C46", "title": "Missing value handling (multivariate)", "statement": "After preprocessing the rows are the caller's rows in ascending label order and the columns the caller's columns in ascending name order, no cell is missing, observed cells are unchanged, and every missing cell gets the previous/next/linear/fixed/zero value according to fill_na_method (with the documented fallbacks at the ends, and 0 in an empty column). A table with an inconvertible cell raises DataFormatError; only the five method names and a float fill value are accepted.", "quantifier": "every table and method", "why_tests_cant": "All missing patterns.", "anchors": ["src/anomaly_detector/common/data_processor.py:MultiADDataProcessor"]}
{"id": "C47", "title": "Order independence (multivariate)", "statement": "Permuting the columns, or the rows of a table with distinct index labels, does not change the preprocessed table; permuting the columns changes neither fit nor predict in any way.", "quantifier": "every table and permutation", "why_tests_cant": "All permutations.", "anchors": ["src/anomaly_detector/common/data_processor.py:MultiADDataProcessor.process"]}
{"id": "C48", "title": "Results are labelled with the row they score", "statement": "Intended: every result of a multivariate prediction carries the index label of the row it scores. Actual: the scored rows are those of the table sorted by label, the labels are taken by position from the caller's table. Result k has the label at position rows-results+k of the caller's table and the score of the row at that position in label order, so labels are right exactly for tables already in label order; for two tables with the same labelled rows in opposite order different labels are reported as anomalies.", "quantifier": "every table", "why_tests_cant": "All index orders.", "anchors": ["src/anomaly_detector/multivariate/model.py:MultivariateAnomalyDetector.predict", "src/anomaly_detector/multivariate/model.py:_pack_response"]}
{"id": "C49", "title": "Minimum data and number of results", "statement": "For a usable request multivariate predict raises ValueError when the table has fewer than input_size+threshold_window rows; whenever it returns, it has exactly rows-input_size-threshold_window+1 results, at least one, and the table had as many columns as the network has variables.", "quantifier": "every table and window configuration", "why_tests_cant": "All sizes.", "anchors": ["src/anomaly_detector/multivariate/model.py:predict", "src/anomaly_detector/multivariate/model.py:compute_window_sizes", "src/anomaly_detector/multivariate/dataset.py"]}
{"id": "C50", "title": "Sliding windows stay inside the data", "statement": "The window and target of every training and validation sample lie inside the sample's own block of rows, target behind window, and every validation row from input_size on is the target of exactly one sample. Inference on n rows makes exactly one sample per row from input_size on, with the input_size rows before it as window.", "quantifier": "every length, window, interval, horizon", "why_tests_cant": "All sizes.", "anchors": ["src/anomaly_detector/multivariate/dataset.py:MultiADDataset"]}
{"id": "C51", "title": "Dynamic threshold window", "statement": "Intended: the dynamic threshold for a scored row is the 95% order statistic of the threshold_window scores ending at that row. Actual: for row r it is the 95% order statistic of the scores of rows max(input_size, r-2(tw-1)) to r-(tw-1), i.e. the window is delayed by tw-1 rows; a row can reach the intended threshold and the hard limits and not be reported.", "quantifier": "every score sequence", "why_tests_cant": "All score sequences.", "anchors": ["src/anomaly_detector/multivariate/model.py:predict", "src/anomaly_detector/multivariate/util.py:get_threshold"]}
{"id": "C52", "title": "Hard thresholds", "statement": "A row scoring above max(0.5, trained threshold) is always an anomaly and a row scoring below min(0.3, trained threshold) never is.", "quantifier": "every score sequence and trained threshold", "why_tests_cant": "All scores.", "anchors": ["src/anomaly_detector/multivariate/model.py:predict"]}
{"id": "C53", "title": "Severity range", "statement": "Scores lie in [0,e-1]; severity is 0 for rows that are not anomalies and score/(e-1) in [0,1] otherwise; it is positive for anomalies whose score is positive.", "quantifier": "every score sequence, network output and weight vector", "why_tests_cant": "All network outputs.", "anchors": ["src/anomaly_detector/multivariate/model.py:predict", "src/anomaly_detector/multivariate/model.py:inference", "src/anomaly_detector/multivariate/util.py:compute_severity"]}
{"id": "C54", "title": "Interpretation lists every variable once, by contribution", "statement": "interpretation contains each variable exactly once with its own share of the score, ordered by non-increasing contribution_score; the scores are in [0,1] and sum to 1 whenever the row's score is not 0, and are all NaN when it is 0.", "quantifier": "every score matrix", "why_tests_cant": "All matrices.", "anchors": ["src/anomaly_detector/multivariate/model.py:_pack_response", "src/anomaly_detector/multivariate/model.py:predict"]}
{"id": "C55", "title": "Correlation changes", "statement": "changed_values has at most 10 entries, sorted by non-increasing absolute value, each above the reporting cutoff min(0.001, 1/(1.25 n)), each named by its own variable, each in [-1,1] and equal to the change of attention relative to its mean over the threshold window; a variable left out is not above the cutoff or ten others changed at least as much.", "quantifier": "every attention tensor", "why_tests_cant": "All tensors.", "anchors": ["src/anomaly_detector/multivariate/model.py:_pack_response", "src/anomaly_detector/multivariate/module.py:GAT"]}
{"id": "C56", "title": "Attention rows are distributions", "statement": "Every row of the attention map is nonnegative and sums to one, and entry (i,j) depends on the key of node i and the query of node j.", "quantifier": "every input", "why_tests_cant": "All inputs.", "anchors": ["src/anomaly_detector/multivariate/module.py:GAT.forward"]}
{"id": "C57", "title": "Batch size does not matter for inference", "statement": "Changing the batch_size of a trained detector to any positive number changes neither the results nor the exceptions of predict.", "quantifier": "every detector state reachable by fit, predict, save, load and new; every table and params dict; every positive batch size", "why_tests_cant": "All sizes.", "anchors": ["src/anomaly_detector/multivariate/model.py:inference", "src/anomaly_detector/multivariate/util.py:append_result"]}
{"id": "C58", "title": "Fit keeps the best epoch", "statement": "Intended: after fit returns the detector holds the network of the first epoch with the smallest validation loss. Actual: that holds when some epoch's loss is below infinity, and then the checkpoint in the save directory holds the same network and configuration. Otherwise (all losses NaN or infinite, or epochs <= 0) fit returns normally with the configuration and network of whatever checkpoint was in the save directory before the call.", "quantifier": "every sequence of epoch losses, every earlier content of the save directory", "why_tests_cant": "All training histories.", "anchors": ["src/anomaly_detector/multivariate/model.py:fit", "src/anomaly_detector/multivariate/model.py:save_checkpoint", "src/anomaly_detector/multivariate/model.py:load_checkpoint"]}
{"id": "C59", "title": "Normalisation range", "statement": "All values of training samples lie in [0,1] and the clipping changes none of them; values of inference samples lie in [-1000,1000]; a value inside the training range is not clipped at inference and lies in [0,1].", "quantifier": "every table", "why_tests_cant": "All values.", "anchors": ["src/anomaly_detector/multivariate/util.py:minmax_normalize", "src/anomaly_detector/multivariate/dataset.py"]}
{"id": "C60", "title": "A multivariate params dict can be reused", "statement": "Intended: a multivariate params dict can be reused. Actual: every usable request, even one that fails later, removes sliding_window, fill_na_method, fill_na_value and all unknown keys from the caller's dict, so a second request with it fills linearly and uses windows of 200/200; there is a dict and table for which fit succeeds and the same fit repeated with the same dict raises ValueError.", "quantifier": "every params dict", "why_tests_cant": "All histories.", "anchors": ["src/anomaly_detector/multivariate/model.py:_process_data_and_params"]}
{"id": "C61", "title": "Predict needs a trained model", "statement": "predict on a detector that was never fitted raises ValueError for every valid table; after load from a checkpoint without thresholds it cannot return a result.", "quantifier": "every table and history", "why_tests_cant": "Histories.", "anchors": ["src/anomaly_detector/multivariate/model.py:predict", "src/anomaly_detector/multivariate/model.py:load_checkpoint"]}
{"id": "C62", "title": "Variable weights", "statement": "The weight of a variable (column not named timestamp, by name) is 1, or, if the variable is volatile, the fraction of volatile variables. A variable is volatile when the mean over all rows of the largest swing in the last input_size+threshold_window rows exceeds 1.9; the swing of a cell is its larger relative difference to its two neighbours, at most 2. It is judged on the caller's rows as given: unsorted, unfilled, including validation rows. Every weight of every reachable detector is in (0,1].", "quantifier": "every table", "why_tests_cant": "All tables.", "anchors": ["src/anomaly_detector/multivariate/util.py:get_multiple_variables_pct_weight_score"]}
{"id": "C63", "title": "Loss average", "statement": "The validation loss of an epoch is the sum of the losses of consecutive batches of at most batch_size samples divided by the number of samples when the batch losses are finite, and NaN when one is NaN. Without validation samples it is 0, so the first epoch is kept.", "quantifier": "every batch sequence", "why_tests_cant": "All sequences.", "anchors": ["src/anomaly_detector/multivariate/util.py:AverageMeter"]}
{"id": "C64", "title": "Train and validation data are disjoint", "statement": "fit trains on the first floor(n*train_ratio) rows of the filled table and validates with the floor(n*val_ratio) rows after them, where the products are rounded to doubles first; the blocks are disjoint and consecutive, every sample is cut from its own block, and the normalisation range of a variable is the largest and smallest value of the training rows. With the default ratios the blocks have exactly floor(8n/10) and floor(n/10) rows. Other ratios may lose a row: 0.7 of 90 rows trains on 62.", "quantifier": "every table length and ratios; defaults below 2^40 rows", "why_tests_cant": "All sizes; the rounding of the product depends on the size.", "anchors": ["src/anomaly_detector/multivariate/model.py:fit"]}
{"id": "C65", "title": "Microsecond interval", "statement": "Intended: with granularity 'microsecond' and customInterval k the grid step is k microseconds. Actual: positions count milliseconds; the step computed in doubles is k or k-1 milliseconds (for k < 2^50), and it is k-1 for k = 4007. Whole milliseconds from November 2004 to January 2038 are placed exactly on this grid; outside it milliseconds are lost, two stamps of January 2004 one millisecond apart get the same position.", "quantifier": "every customInterval k with 0 < k < 2^50; every series of whole milliseconds in the range given", "why_tests_cant": "The wrong steps are rare and only appear for specific integers after a division and a truncation in double precision.", "anchors": ["src/anomaly_detector/univariate/util/helpers.py:get_indices_from_timestamps", "src/anomaly_detector/univariate/util/helpers.py:get_microsecond_by_granularity", "src/anomaly_detector/univariate/util/fields.py:MICRO_SECOND"]}
{"id": "C66", "title": "Validation cannot be bypassed", "statement": "Intended: no result for a series that fails validation. Actual: a caller-supplied params entry \"indices\" bypasses it; there is a request with fewer than 12 rows that returns a result while error_code says InvalidSeries.", "quantifier": "existence of one request (a counterexample to a universal property)", "why_tests_cant": "The intended property ranges over every params dict, including undocumented keys.", "anchors": ["src/anomaly_detector/univariate/univariate_anomaly_detection.py:predict", "src/anomaly_detector/univariate/univariate_anomaly_detection.py:series_validator"]}
{"id": "C67", "title": "Unknown parameters have no influence", "statement": "Adding or changing a params key the API does not know changes neither the outcome nor any other entry of params.", "quantifier": "every key other than the known ones and detect_mode, every value, every request", "why_tests_cant": "All keys and values.", "anchors": ["src/anomaly_detector/univariate/univariate_anomaly_detection.py:parse_arg", "src/anomaly_detector/univariate/univariate_anomaly_detection.py:predict"]}
{"id": "C68", "title": "Score and sensitivity agree", "statement": "With V2 boundaries a point flagged by the detector is reported at sensitivity s exactly when its anomaly score exceeds 100-s; at sensitivity 0 it is reported only if its score is 100.", "quantifier": "every row and boundary unit; sensitivity 1 to 98 and 100, and 0 (one direction); sensitivity 99 is excluded because there the code shrinks the band on purpose to show some lower-scored anomalies", "why_tests_cant": "Relates two independently implemented piecewise functions over all reals and 101 sensitivities.", "anchors": ["src/anomaly_detector/univariate/util/boundary_utils.py:calculate_anomaly_score", "src/anomaly_detector/univariate/util/boundary_utils.py:calculate_margin", "src/anomaly_detector/univariate/util/refine.py:get_margins_v2"]}
{"id": "C69", "title": "Saved models are usable", "statement": "Intended: a new detector that loads the checkpoint fit wrote predicts like the fitted one. Actual: the checkpoint is written before thresholds are computed, so it holds the threshold the detector had before the call; after a detector's first fit a new detector that loads the checkpoint never returns a prediction.", "quantifier": "every reachable detector, file system, table and params dict", "why_tests_cant": "All histories of calls and all later tables.", "anchors": ["src/anomaly_detector/multivariate/model.py:save_checkpoint", "src/anomaly_detector/multivariate/model.py:load_checkpoint", "src/anomaly_detector/multivariate/model.py:fit"]}
{"id": "C70", "title": "Parameters of a prediction", "statement": "Of the params of a usable multivariate predict request only fill_na_method and fill_na_value matter: two usable requests that agree in them have the same outcome.", "quantifier": "every detector state, table and pair of params dicts usable with the table", "why_tests_cant": "All pairs of dicts.", "anchors": ["src/anomaly_detector/multivariate/model.py:predict", "src/anomaly_detector/multivariate/model.py:_process_data_and_params"]}
{"id": "C71", "title": "An epoch visits every sample once", "statement": "A training epoch visits the samples in one random order in batches of exactly batch_size, at most once each; the last n mod batch_size of the order are left out.", "quantifier": "every sample list, batch size, shuffle and training step", "why_tests_cant": "All shuffles and sizes.", "anchors": ["src/anomaly_detector/multivariate/model.py:fit", "src/anomaly_detector/multivariate/model.py:train_epoch"]}
{"id": "C72", "title": "Training changes the network", "statement": "Intended: a successful fit has trained. Actual: with fewer training samples than batch_size no epoch takes a step; fit returns normally with the initial random weights.", "quantifier": "every number of epochs and every sample list shorter than batch_size", "why_tests_cant": "All epochs and weights.", "anchors": ["src/anomaly_detector/multivariate/model.py:fit"]}
{"id": "C73", "title": "Trained threshold", "statement": "After a successful multivariate fit in which some epoch had a loss below infinity, the trained threshold is the order statistic of rank floor(n*level) (from 0, product rounded to a double) of the n scores of the training rows from input_size on; with the default level the rank is exactly floor(8n/10). The stored score maximum and minimum are those of the same scores.", "quantifier": "every reachable detector state and every successful fit", "why_tests_cant": "All training tables, weights and levels.", "anchors": ["src/anomaly_detector/multivariate/model.py:fit", "src/anomaly_detector/multivariate/model.py:inference", "src/anomaly_detector/multivariate/model.py:compute_thresholds"]}
{"id": "C74", "title": "When predict answers", "statement": "After a successful multivariate fit in which some epoch had a loss below infinity, a usable predict request returns results exactly when its table has as many columns as the training table and at least input_size + threshold_window rows.", "quantifier": "every reachable detector state, successful fit, and usable predict table and params", "why_tests_cant": "All pairs of tables.", "anchors": ["src/anomaly_detector/multivariate/model.py:fit", "src/anomaly_detector/multivariate/model.py:predict", "src/anomaly_detector/multivariate/model.py:inference"]}
{"id": "C75", "title": "A failed fit keeps the old detector", "statement": "Intended: a fit that raises leaves the detector as it was. Actual: the configuration and the weights of the variables are overwritten before training; after a fit that raises RuntimeError, a table the detector answered for before can raise ValueError.", "quantifier": "existence of a reachable detector and two requests", "why_tests_cant": "Needs a failing fit between two predictions.", "anchors": ["src/anomaly_detector/multivariate/model.py:fit", "src/anomaly_detector/multivariate/model.py:_process_data_and_params"]}
{"id": "C76", "title": "Windows shorter than the kernel", "statement": "A multivariate fit with at least one epoch whose input_size (half of sliding_window) is smaller than cnn_kernel_size never returns normally, whatever the data; with the default kernel of 7 this is every sliding_window below 14.", "quantifier": "every reachable detector state and usable fit request with such a window", "why_tests_cant": "All tables and parameters.", "anchors": ["src/anomaly_detector/multivariate/model.py:fit", "src/anomaly_detector/multivariate/model.py:_process_data_and_params", "src/anomaly_detector/multivariate/contract.py"]}
{"id": "C77", "title": "ESD detector", "statement": "The ESD detector never fails. Its candidates are the points in descending (upper) or ascending (lower) order, cut to those on the tested side of the series' majority value when it has one (scaled MAD at most 1e-8 and lower median near neither minimum nor maximum). It proposes the candidates up to the last rank below max_outliers that is outlying with the critical value for the number of candidates; in latest mode nothing if the latest point is no candidate, else the candidates up to the first outlying rank from that point on.", "quantifier": "every nonempty series, ratio, alpha, direction and mode", "why_tests_cant": "All series and orders of ties.", "anchors": ["src/anomaly_detector/univariate/detectors/esd_filter.py:ESD", "src/anomaly_detector/univariate/util/helpers.py:get_verified_majority_value", "src/anomaly_detector/univariate/util/helpers.py:get_critical"]}
{"id": "C78", "title": "z-score detector", "statement": "The z-score detector proposes, in ranking order, those of the first max_outliers points that are more than three scales from the centre: median and scaled MAD, or mean and standard deviation if the MAD is 0; nothing if the scale is 0. Points proposed in the upper direction always lie above the centre, in the lower direction below it.", "quantifier": "every nonempty series, ratio and direction; the side claim for every square root accurate to a factor of two", "why_tests_cant": "All series.", "anchors": ["src/anomaly_detector/univariate/detectors/z_score.py:ZScoreDetector"]}
{"id": "C79", "title": "What the threshold models flag", "statement": "The dynamic threshold model flags exactly the points selected in one of the directions: the fusion of the ESD and z-score proposals on the normalised series. The seasonal model fuses ESD and z-score on the normalised deseasonalised series and ESD on the normalised remainder. Per direction at most ceil(n*ratio) points are selected (the product in doubles, at least one, fewer than half of the points). Detection itself never fails, and the Mad model id is reported exactly for series with a majority value.", "quantifier": "every series, ratio, alpha and mode; every decomposition for the seasonal model", "why_tests_cant": "All series and library results.", "anchors": ["src/anomaly_detector/univariate/model/dynamic_threshold.py:detect_anomaly", "src/anomaly_detector/univariate/model/seasonal_series.py:detect_anomaly", "src/anomaly_detector/univariate/model/detect.py:detect"]}
{"id": "C80", "title": "What the spectral residual model flags", "statement": "The spectral residual model flags at most max(floor(n*ratio),1) points (the product in doubles), all with a score at or above the threshold, all of those if they are not more, and never leaves out a point with a better score than a flagged one. The score is the relative distance of the magnitude to the padded average of the last 100 magnitudes. In latest mode a last value less than 1.5 standard deviations from the mean is not flagged for a positive threshold.", "quantifier": "every series, threshold, ratio and mode", "why_tests_cant": "All series and transforms.", "anchors": ["src/anomaly_detector/univariate/model/spectral_residual_model.py:spectral_residual_detection", "src/anomaly_detector/univariate/detectors/spectral_residual.py:SpectralResidual"]}
{"id": "C81", "title": "Calendar period", "statement": "The calendar detector tries the periods of the granularity (a week, then a day of hours; a week, a day, two days of minutes or seconds, in steps of the interval; 7 days; 12 and 4 weeks; 12 months; 1000 microseconds) in that order and takes the first that is at least 4, fits more than twice and passes the variance test (seasonal means explain more than a fixed share of the variance, with or without the moving-median trend). Intended: it reports a period that passed the test. Actual: it reports the first period of the list whenever that fits more than twice and is a multiple of the one that passed, even if it was tested and rejected; and for microsecond granularity an accepted period raises KeyError.", "quantifier": "every series, granularity and interval, every square-root and float32 rounding function obeying the stated laws", "why_tests_cant": "The rule ranges over all series and intervals, and the rejected-yet-reported period needs a series where the short period passes and the long one fails.", "anchors": ["src/anomaly_detector/univariate/period/simple.py:SimpleDetector", "src/anomaly_detector/univariate/period/period_detect.py:period_detection", "src/anomaly_detector/univariate/util/helpers.py:smooth_spikes"]}
{"id": "C82", "title": "Detected period", "statement": "Without a requested period, the reported period is 0 if more than half of the time grid is missing; otherwise it is the calendar period of the series or, if there is none, the spectrum period: the product of the significant lags with least leave-one-out error found in the scaled, despiked, detrended series and successively in every so-many-th point, each explaining at least 20% of the variance. The series is the input when nothing is missing and by default the input with gaps filled by the last observation.", "quantifier": "every request without period that is answered (imputeMode='fixed' with gaps excluded), every library behaviour obeying the stated laws", "why_tests_cant": "Relates the reported number to the data over all series, grids and library results.", "anchors": ["src/anomaly_detector/univariate/period/spectrum.py:SpectrumDetector", "src/anomaly_detector/univariate/period/period_detect.py:period_detection", "src/anomaly_detector/univariate/model/series_compete_processor.py:period_detection_with_filled_values"]}
{"id": "C83", "title": "What the second pass on differences reports", "statement": "Without a period, the result of a detection step is either that of its first pass, or the same detector also ran on the first or second differences of the series with the part of the anomaly budget the first pass left over, and exactly the points flagged there and not in the first pass were added. The expected value of an added point is the first pass's expected value of the point before plus the expected difference (for second differences: the expected second differences summed up from the first difference of the series); the trend likewise; it is a positive anomaly iff its value exceeds this.", "quantifier": "every series of at least two points, every alpha, threshold, ratio and mode, every library behaviour obeying the stated laws", "why_tests_cant": "Relates two detector runs for all series and budgets; a wrong neighbour or order of differences shows up only on added points.", "anchors": ["src/anomaly_detector/univariate/model/detect_model.py:merge_with_delta", "src/anomaly_detector/univariate/util/helpers.py:get_delta,reverse_delta"]}
{"id": "C84", "title": "Seasonal decomposition", "statement": "Trend, seasonal and remainder of the decompositions used for detection add up to the series at every point, given that the underlying STL routine is additive; with the log transform they do so for every STL routine. Logarithms are only taken of numbers at least 1. With the log transform trend plus seasonal exceeds the least value minus 1 (is positive if all values are at least 1). In latest mode the series is also decomposed with one more value, the median of the points a whole number of periods before it, and the decomposition with the smaller remainder at the last point is used.", "quantifier": "every series and period no longer than the series, both transforms, every STL routine with outputs of the length of its input, every exp and log", "why_tests_cant": "Holds for every series and every numerical STL implementation.", "anchors": ["src/anomaly_detector/univariate/util/r_stl.py:stl", "src/anomaly_detector/univariate/util/r_stl.py:stl_log", "src/anomaly_detector/univariate/util/r_stl.py:stl_adjust_trend"]}
{"id": "C85", "title": "Trend of a series without period", "statement": "The fitted trend has the length of the series and is the edge-corrected spline with one knot per double window, where the window is 2p-1 for a period p of at least 2 and else a third of the series but at most 512. If no period is given, it is guessed: the nearest whole number (ties to even) to the score-weighted mean of the periodogram peaks of the series without its broad median trend, hence between the least and the greatest of these peaks; without peaks a third of the series but at most 512.", "quantifier": "every series and period, every filter and periodogram routine", "why_tests_cant": "All series, all periodogram results.", "anchors": ["src/anomaly_detector/univariate/util/helpers.py:fit_trend", "src/anomaly_detector/univariate/util/helpers.py:guess_trended_period"]}
{"id": "C86", "title": "Spectral residual amplitude", "statement": "The running product of the spectral residual transform yields, at every frequency, the k-th root of the product of the positive magnitudes among the last k=min(3,i+1); in real arithmetic this is the exponential of the mean of the logs of these magnitudes with log 0 taken as 0, so that the divided frequency equals the formula re*exp(log mag - average log)/mag that the code quotes in a comment. If no frequency vanishes, scaling the series by a positive constant does not change the transform. Intended: this holds for every series. Actual: if a magnitude is zero, the transform depends on the unit of the data.", "quantifier": "every vector of magnitudes, every series and positive scale factor, every Fourier transform commuting with the scaling", "why_tests_cant": "Equality of a running product with division and a window formula for all lengths and values.", "anchors": ["src/anomaly_detector/univariate/_anomaly_kernel_cython.pyx:spectral_residual_transform_core"]}
{"id": "C87", "title": "Critical values of the ESD test", "statement": "The built-in table has 18000 entries, falls strictly up to its two last entries, which are 0, and starts at about 4.5414. With alpha = 0.05 the critical value depends only on the number of remaining points, grows with it, is 0 for at most two points and stays below 4.5414. The computed critical value for m+1 remaining points, m at least 2, lies below m/sqrt(m+1) in absolute value, is positive for positive t, grows with t and falls as alpha grows. For a NaN or infinite alpha, which validation accepts, the ESD detector proposes nothing.", "quantifier": "every position, number of points up to 18000 (table); every m, t and alpha (formula); every series, ratio, direction and mode (non-finite alpha)", "why_tests_cant": "Quantifies over all table positions and over all real t and alpha.", "anchors": ["src/anomaly_detector/univariate/_anomaly_kernel_cython.pyx:calculate_esd_values", "src/anomaly_detector/univariate/util/critical_table_values.py", "src/anomaly_detector/univariate/util/helpers.py:get_critical", "src/anomaly_detector/univariate/detectors/esd_filter.py"]}
{"id": "C88", "title": "Share of the fullest histogram bin", "statement": "The majority ratio of a series is the share of its values in the fullest of 20 equal bins between least and greatest value (or around the common value, half a unit on each side); it lies between 1/20 and 1.", "quantifier": "every non-empty series for which the histogram routine does not raise", "why_tests_cant": "All series.", "anchors": ["src/anomaly_detector/univariate/model/detect_model.py:histogram_counts"]}
{"id": "C89", "title": "Validation loss", "statement": "The validation loss that selects the epoch is the mean over the validation samples of: squared forecast error plus beta times the sum of squared reconstruction error and divergence of the latent normal distribution from the standard one. Each sample contributes what the network returns for it alone, so the size of the evaluation batches has no influence. The loss is not negative, and 0 only if every validation sample is forecast exactly.", "quantifier": "every accepted training table and params dict (beta absent or a nonnegative number) with a kernel that fits the window, every finite network of the sizes the constructor gives it, every batch size; arithmetic without rounding; for the sign: an exponential function with exp(x) >= 1+x", "why_tests_cant": "All networks, tables and batch sizes.", "anchors": ["src/anomaly_detector/multivariate/module.py:AnomalyDetectionCriterion", "src/anomaly_detector/multivariate/model.py:evaluate_epoch", "src/anomaly_detector/multivariate/util.py:AverageMeter"]}
{"id": "C90", "title": "Every fill method keeps what was observed", "statement": "Intended: FillingUpProcess.fill_up ends, returns one entry per grid position with every observation unchanged, and tags exactly the missing positions. Actual: so for every method and every combination of arguments, except method 'spline_seg' with if_exception 'fill_with_none' or 'fill_with_last' and either leverage_filled_values or an if_short_of_knowledge other than 'try_best': there an observed value can be overwritten and the call can run forever.", "quantifier": "every nonempty list of positions and values that the constructor accepts, every method name, every keyword argument, every interpolating spline", "why_tests_cant": "The product of methods, policies and gap layouts is unbounded; the bad combination needs a spline that fails at the start of a gap and succeeds inside it.", "anchors": ["src/anomaly_detector/univariate/filling_up/fill_up.py:fill_up", "src/anomaly_detector/univariate/filling_up/fill_up.py:__step_by_step_fill_up", "src/anomaly_detector/univariate/filling_up/fill_up_methods.py:func_spline_interpolation_seg"]}
{"id": "C91", "title": "Fill methods stay within the observed range", "statement": "The methods min, max, median, last, linear, linear_seg, auto, and average and weighted_avg with nonnegative weights or none, give values between the smallest and the largest observation.", "quantifier": "every accepted nonempty series, every keyword argument (filled values as further input included), every interpolating spline", "why_tests_cant": "With leverage_filled_values each filled value feeds the next ones; the bound is an invariant over arbitrarily many gaps.", "anchors": ["src/anomaly_detector/univariate/filling_up/fill_up.py:fill_up", "src/anomaly_detector/univariate/filling_up/fill_up_methods.py:__basic_func", "src/anomaly_detector/univariate/filling_up/fill_up_methods.py:func_weighted_avg", "src/anomaly_detector/univariate/filling_up/fill_up_methods.py:func_linear_interpolation_seg"]}
{"id": "C92", "title": "Filling from the nearest observations", "statement": "With the defaults for if_short_of_knowledge and leverage_filled_values, min, max, median and average always return. A missing position gets the minimum, maximum, median or mean of the backward_n nearest observations before it and the forward_n nearest after it, among those a multiple of the period away if consider_period is set. It stays empty only if there is no such observation, which cannot happen when the period is not considered.", "quantifier": "every accepted nonempty series, every backward_n and forward_n not both 0, every period, every if_exception", "why_tests_cant": "The walk over the grid jumps over gaps with ceil arithmetic that depends on the length of every gap and the period.", "anchors": ["src/anomaly_detector/univariate/filling_up/fill_up_methods.py:_get_periodical_values", "src/anomaly_detector/univariate/filling_up/fill_up_methods.py:__get_backward_and_forward_values", "src/anomaly_detector/univariate/filling_up/fill_up_methods.py:__basic_func"]}
{"id": "C93", "title": "Weights belong to places next to the gap", "statement": "weighted_avg (and average with weights) divides the weighted sum of the nearest observations by the sum of the weights used. The first backward_n weights belong to the side before the gap, the others to the side after it; if a side has fewer observations, its weights farthest from the gap are left out. With positive weights of the right number every call returns.", "quantifier": "every accepted nonempty series, every list of weights, every backward_n, forward_n and period, if_short_of_knowledge 'try_best', leverage_filled_values off", "why_tests_cant": "Slicing of the weights depends on how many neighbours exist on each side of every gap.", "anchors": ["src/anomaly_detector/univariate/filling_up/fill_up_methods.py:__basic_func", "src/anomaly_detector/univariate/filling_up/fill_up_methods.py:func_weighted_avg"]}
{"id": "C94", "title": "Strict filling", "statement": "With if_short_of_knowledge 'fill_with_none', min, max, median and average fill a missing position iff the backward_n grid positions before it and the forward_n after it, at steps of the period, are all observed, and leave it empty otherwise. With 'raise' the call raises an Exception iff some missing position has an unobserved neighbour, and fills every position otherwise.", "quantifier": "every accepted nonempty series, every backward_n and forward_n not both 0, every period, leverage_filled_values off", "why_tests_cant": "An equivalence over all gap layouts and distances.", "anchors": ["src/anomaly_detector/univariate/filling_up/fill_up_methods.py:_get_periodical_values", "src/anomaly_detector/univariate/filling_up/fill_up_methods.py:__get_backward_and_forward_values"]}
{"id": "C95", "title": "Linear interpolation gap by gap", "statement": "Method 'linear_seg' gives the same result as method 'linear', for the same arguments.", "quantifier": "every accepted nonempty series, every keyword argument", "why_tests_cant": "Equality of two algorithms on all inputs.", "anchors": ["src/anomaly_detector/univariate/filling_up/fill_up_methods.py:func_linear_interpolation_seg", "src/anomaly_detector/univariate/filling_up/fill_up_methods.py:func_linear_interpolation_entire"]}
{"id": "C96", "title": "Error policies of fill_up", "statement": "Intended: 'fill_with_none' leaves a position empty and 'fill_with_last' carries the last value when a method fails; wrong options are refused. Actual: so for the step-by-step methods, which then raise nothing. The whole-series spline on at most three observations raises an Exception, leaves all gaps empty with 'fill_with_none', and with 'fill_with_last' ends in a TypeError. Unknown options and methods and bad periods are refused, but only if there is a gap to fill; otherwise any call returns (None, None).", "quantifier": "every accepted nonempty series, every method name and keyword argument (those of C90 that do not terminate excluded)", "why_tests_cant": "All failures of all methods in all positions.", "anchors": ["src/anomaly_detector/univariate/filling_up/fill_up.py:fill_up", "src/anomaly_detector/univariate/filling_up/fill_up.py:__step_by_step_fill_up", "src/anomaly_detector/univariate/filling_up/fill_up.py:__entire_fill_up"]}
{"id": "C97", "title": "Reports on gaps", "statement": "Intended: get_missing_indices and get_missing_segments list the missing positions and the gaps. Actual: if there are gaps (and at most 17280 positions) the first lists exactly the missing positions in order, the second exactly the maximal runs of missing positions with their lengths; for a series without gaps both raise AttributeError.", "quantifier": "every accepted nonempty series", "why_tests_cant": "All gap layouts.", "anchors": ["src/anomaly_detector/univariate/filling_up/fill_up.py:get_missing_indices", "src/anomaly_detector/univariate/filling_up/fill_up.py:get_missing_segments"]}
{"id": "C98", "title": "Imputation of predict as calls of fill_up", "statement": "Each imputation mode makes one call of fill_up: 'previous' and 'use_last' the method last, 'fixed' the method constant, 'linear' the method linear, 'auto' the method auto with the period and 'fill_with_last'; the results and the exceptions agree, so C90, C91 and C95 hold for imputation too. The pass of 'auto' over large gaps is the call weighted_avg with three neighbours on each side at multiples of the period.", "quantifier": "every accepted nonempty series, every mode, fixed value and period, every spline routine", "why_tests_cant": "Equality of two computations on all inputs.", "anchors": ["src/anomaly_detector/univariate/model/series_compete_processor.py:fill_up_on_demand", "src/anomaly_detector/univariate/filling_up/fill_up.py:__auto_fill_up"]}
{"id": "C99", "title": "Pattern of a period", "statement": "get_period_pattern(period, granularity, custom_interval) is the longest unit (microsecond, secondly, minutely, hourly, daily, weekly, monthly, yearly) that is at most period * custom_interval units of the granularity long, with months of 28 days and years of 336 days; none if even the shortest unit is longer. A missing interval is 1. One point at interval 1 has the pattern of its granularity, and a longer period never has a shorter pattern. This also holds for granularity 'microsecond' (whose unit is a millisecond), where the code compares rounded products of the double 0.001.", "quantifier": "every granularity, every period and interval that are nonnegative integers", "why_tests_cant": "A product such as 0.001 * k * p that should equal a unit exactly could be rounded below it for some of the infinitely many factors; tests try a few.", "anchors": ["src/anomaly_detector/univariate/util/helpers.py:get_period_pattern", "src/anomaly_detector/univariate/util/helpers.py:get_pattern_by_second", "src/anomaly_detector/univariate/util/helpers.py:get_second_by_granularity"]}
{"id": "C100", "title": "Least squares line", "statement": "leastsq(x, y) on points with at least two different abscissae returns finite slope and intercept, and their line is the only one with the least sum of squared errors (in exact arithmetic). If all abscissae are equal, or there is no point, both results are NaN.", "quantifier": "every list of points with rational coordinates", "why_tests_cant": "Optimality and uniqueness among all lines.", "anchors": ["src/anomaly_detector/univariate/util/helpers.py:leastsq"]}
{"id": "C101", "title": "Straight series", "statement": "is_straight(values, step) holds exactly when at least max(1, n // 2) positions start a window of step points (shorter at the end) with variance below 1e-8. So every nonempty series of at most 3 points is straight, every nonempty series is straight for step 1, the empty series is not, and adding a constant to the values changes nothing.", "quantifier": "every finite series, every step >= 1", "why_tests_cant": "All series.", "anchors": ["src/anomaly_detector/univariate/_anomaly_kernel_cython.pyx:is_straight"]}
{"id": "C102", "title": "Threshold detector", "statement": "On an ascending series DynamicThreshold.detect returns the labels of the most extreme points of the requested side in order, up to the last one within max_outliers that is outlying for the threshold (by median and MAD or by mean and standard deviation of the points not yet passed). If last_value is given it returns them up to the first outlying one at or after the latest point, so the result is empty or contains the latest point. Never more than max_outliers labels.", "quantifier": "every ascending series, direction, threshold (also NaN and infinite), every max_outliers up to the number of points, nonempty series if last_value is given", "why_tests_cant": "All series and thresholds.", "anchors": ["src/anomaly_detector/univariate/detectors/dynamic_filter.py:DynamicThreshold.detect", "src/anomaly_detector/univariate/_anomaly_kernel_cython.pyx:dynamic_threshold"]}
{"id": "C103", "title": "Histogram-based detection", "statement": "Intended: hbos_detection returns one row per point with flag, expected value and directions, and the expected values leave the flagged points out. Actual: one row per point in order, flagged exactly when the score of the library exceeds the threshold; the direction columns are missing when nothing is flagged, otherwise a flagged point has exactly one direction; the library gets the series (period 0) or the normalized remainder with contamination max(outlier_fraction, 1/n). For a positive period the expected values are trend plus season, with the trend at flagged points replaced by a straight line between the nearest other points (unless all are flagged); for period 0 they are the trend of the whole series including the flagged points. For a positive period a fraction above 0.49 or at most two periods of data is a ValueError; the empty series is a ZeroDivisionError.", "quantifier": "every series of finite floats, period, threshold, fraction, every behaviour of the decomposition, the trend filter and the histogram library that returns one score per value", "why_tests_cant": "All series and all library results; the dead branch (a number compared with itself) shows only by reasoning.", "anchors": ["src/anomaly_detector/univariate/model/hbos_detection.py:hbos_detection", "src/anomaly_detector/univariate/model/hbos_detection.py:hbos_detection_seasonal", "src/anomaly_detector/univariate/model/hbos_detection.py:hbos_detection_nonseasonal", "src/anomaly_detector/univariate/model/hbos_detection.py:modify_anomaly_status"]}
{"id": "C104", "title": "Time strings", "statement": "str_to_dt returns the time in UTC without a zone: the parsed wall clock minus its offset, or unchanged if the string has no zone; it raises only what the parser raises or OverflowError when the result leaves the years 1 to 9999. dt_to_str depends only on the instant: two datetimes of the same instant are written the same whatever their zones, and no zone counts as UTC. From the year 1000 on, dt_to_str_with_microsecond followed by str_to_dt gives the same instant, and dt_to_str followed by str_to_dt drops exactly the fraction of the second.", "quantifier": "every string, every datetime with any or no UTC offset, every parser and formatter that read back what they write", "why_tests_cant": "All instants and offsets.", "anchors": ["src/anomaly_detector/common/time_util.py:str_to_dt", "src/anomaly_detector/common/time_util.py:dt_to_str", "src/anomaly_detector/common/time_util.py:dt_to_str_with_microsecond"]}
{"id": "C105", "title": "Reading dates", "statement": "Intended: format_timestamp_str reads eight date formats. Actual: it returns a time exactly when the string writes that time (a real date, a clock below 24:00:00) as YYYY-MM-DDTHH:MM:SSZ, YYYY-MM-DDTHH:MM:SS, YYYY-MM-DD HH:MM:SS, YYYY-MM-DD HH:MM or MM/DD/YY (years 1969 to 2068); every other string is a ValueError. The recognised formats MM/DD/YYYY, YYYYMMDD and the one with a +ZZZZ offset are never read, whatever the date. format_timestamp reads a nonempty column written in one of the five styles cell by cell, refuses with ValueError a column that mixes styles, and reads a column whose first cell has ten digits as seconds since 1970. A column of times from the year 1000 on that format_timestamp_to_str wrote is read back unchanged.", "quantifier": "every string of ASCII characters, every column, every conversion of seconds to times", "why_tests_cant": "Every string, not only sample dates: no impossible date is accepted, no writing of a real date in the five formats is refused, none at all in the other three is read.", "anchors": ["src/anomaly_detector/univariate/util/date_utils.py:format_timestamp_str", "src/anomaly_detector/univariate/util/date_utils.py:format_timestamp", "src/anomaly_detector/univariate/util/date_utils.py:format_timestamp_to_str", "src/anomaly_detector/univariate/util/date_utils.py:json_serial", "src/anomaly_detector/univariate/util/date_utils.py:date_format", "src/anomaly_detector/univariate/util/date_utils.py:datetime_from_ts"]}
{"id": "C106", "title": "Detection from collected forecasts", "statement": "DetectionResults.compute_detection_results on n rows with a threshold window 1 <= tw <= n reports exactly the rows tw-1 to n-1. A row's score is the mean over variables of weight times exp(min(2|forecast-target|,1))-1; its dynamic threshold is the 95% order statistic of the tw scores ending at this very row (unlike predict, whose window ends tw-1 rows earlier); it is an anomaly iff its score is at least the threshold and the lower bound, or above the upper bound. So the highest score of its window, if at least the lower bound, is always flagged. Severity is in [0,1] for weights in [0,1]; contributor scores are the unweighted shares of the row's misses (NaN if all are zero); the attention shift is taken against the mean of the same window. A window longer than the series is a RuntimeError, an empty window an IndexError, weights that do not fit the variables a RuntimeError. compute_anomaly_scores lies between its two scores for gamma >= 0.", "quantifier": "every pair of forecast and target tables with at least one variable, every weights, bounds and window below 2^40", "why_tests_cant": "All tables and windows: the alignment of window, score, forecast and contributors must agree at every row.", "anchors": ["src/anomaly_detector/multivariate/module.py:DetectionResults.compute_detection_results", "src/anomaly_detector/multivariate/util.py:compute_anomaly_scores"]}
{"id": "C107", "title": "What the forecasting network computes", "statement": "In evaluation mode the network answers exactly the batches whose windows have at least cnn_kernel_size rows and one column per variable (else RuntimeError). Per window it computes: the moving average of cnn_kernel_size rows of every variable; its maxima over gat_window_size bins, where bin t of w covers the positions that overlap the t-th of w equal parts; softmax attention of variables to variables and of bins to bins; a gated recurrent layer over the bins fed with pooled value, value attended over variables and value attended over bins of every variable; from the last state the forecast, the latent mean and log variance and the reconstruction at mean + eps * exp(logv/2). No smoothed position is skipped by the bins. Pooled values of a variable stay between its least and greatest value in the window, all inputs of the recurrent layer between least and greatest value of the window, hidden states in [-1,1], forecasts and reconstructions in [0,1].", "quantifier": "every batch, all weights of the shapes of the constructor, all layer sizes", "why_tests_cant": "All windows, sizes and weights: a transposed axis or a shifted bin shows only for some shapes.", "anchors": ["src/anomaly_detector/multivariate/module.py:MultivariateGraphAttnDetector.forward", "src/anomaly_detector/multivariate/module.py:GAT.forward", "src/anomaly_detector/multivariate/module.py:VAE"]}
{"id": "C108", "title": "Margins and flags in floating point", "statement": "With every operation of the margin stage rounded (to nearest double, or by any rounding that is monotone, odd, idempotent, exact on small integers and never rounds a nonzero number to 0): margins are computed for every sensitivity 0..100 and are not negative; is_anomaly is the disjunction of two exclusive directions and implies that the detection model flagged the point; scores lie in [0,100], severities in [0,1]; raising the sensitivity never removes an anomaly; sensitivity 100 reports exactly the flagged points that differ from their expected value by 1e-8. Without rounding the computation is the one of C14-C21 and C33. Intended: the band separates anomalies from normal points (C16). Actual in doubles: only up to a factor 1 +- 2^-52 of the margins or one rounding of the ends of the band; there are normal points above the upper end of their band, computed in doubles, in both boundary versions.", "quantifier": "every frame of floats with consistent flags, every sensitivity up to 100, model and boundary version, whole series and last point, every order of summation in the mean; no overflow, no subnormal numbers", "why_tests_cant": "All floats: rounding shows in rare combinations.", "anchors": ["src/anomaly_detector/univariate/util/refine.py:get_margins", "src/anomaly_detector/univariate/util/refine.py:refine_margins", "src/anomaly_detector/univariate/util/refine.py:get_margins_v2", "src/anomaly_detector/univariate/util/boundary_utils.py", "src/anomaly_detector/univariate/model/detect_model.py:AnomalyDetectionModel.detect"]}
{"id": "C109", "title": "Growing tables (multivariate)", "statement": "A result of predict depends only on the row it scores, its label and the input_size + 2*(threshold_window-1) rows before it (fewer for the first results): two predictions with the same detector whose processed tables agree there give the same result in all its parts. Hence later rows never change earlier results: if rows are appended to a processed table, the old results are the first of the new ones; if rows are removed from the front, all but the first threshold_window-1 results stay. For the caller's tables with ascending labels the first holds when the old rows have no missing cells, or missing cells are filled with zero or a fixed value, or with the previous value and the first row is complete. Intended: it always holds. Actual: with the default linear filling an appended row can change the result of an earlier row whose cell is missing, from normal to anomaly.", "quantifier": "every reachable detector, every pair of tables, all library functions that satisfy the laws", "why_tests_cant": "Relational: all pairs of tables and all detectors; batch boundaries and the rolling window shift when rows are added.", "anchors": ["src/anomaly_detector/multivariate/model.py:MultivariateAnomalyDetector.predict", "src/anomaly_detector/multivariate/model.py:MultivariateAnomalyDetector.inference", "src/anomaly_detector/multivariate/dataset.py:MultiADDataset", "src/anomaly_detector/common/data_processor.py:MultiADDataProcessor.fill_na"]}
{"id": "C110", "title": "Moving a series in time (univariate)", "statement": "If a request names no granularity (or 'none'), the cells of the timestamp column, and whether there is one, change nothing but the labels in the answer. For the granularities of fixed length (weekly to secondly) and whole-second timestamps between 1824 and 2116, moving all timestamps by the same number of seconds changes nothing but the labels. More generally, for every granularity but microsecond, two series with the same values and ascending timestamps that lie the same numbers of steps after their first one (month ends count as a month apart however long the months; for the fixed lengths whole seconds) differ in the labels only. In all cases errors, the detector's error code and mode, and the caller's params afterwards are the same too. Intended: this holds for every common shift. Actual: moved by a tenth of a second an accepted secondly series can be refused.", "quantifier": "every well-behaved environment, detector state, mode, table and params without a caller-supplied 'indices' entry and with a finite fill constant; every shift by whole seconds; every pair of timestamp columns on the same positions", "why_tests_cant": "Relational: all pairs of requests that differ by a shift, including all error paths; the positions are computed in floating point from absolute times.", "anchors": ["src/anomaly_detector/univariate/univariate_anomaly_detection.py:UnivariateAnomalyDetector.predict", "src/anomaly_detector/univariate/univariate_anomaly_detection.py:UnivariateAnomalyDetector.series_validator", "src/anomaly_detector/univariate/util/helpers.py:get_indices_from_timestamps"]}
{"id": "C111", "title": "Names of variables only label the answer", "statement": "Renaming the columns of a table so that their alphabetical order is kept changes nothing in a multivariate predict but the names in the explanations, and nothing in a fit (if `timestamp` stays what it is) but the names recorded in the detector; exceptions are the same. Intended: predict refuses a table whose variables are not those of the training. Actual: names are never compared, so a table with other variables is answered as if they were the trained ones; renamings that change the order change the anomalies.", "quantifier": "every environment, detector state, table, params and renaming that keeps the order of the names present", "why_tests_cant": "Relational over all renamings, including every error path.", "anchors": ["src/anomaly_detector/multivariate/model.py:MultivariateAnomalyDetector.predict", "src/anomaly_detector/multivariate/model.py:MultivariateAnomalyDetector.fit", "src/anomaly_detector/common/data_processor.py:MultiADDataProcessor.process"]}
{"id": "C112", "title": "Tables without change", "statement": "A multivariate predict on a table whose filled rows are all the same gives every result the same score and severity and names no changed variable. Intended: such rows are not anomalies of one another. Actual: all of them are anomalies if their score is at least min(0.3, trained threshold), none otherwise; trained on a constant table that the network forecasts exactly, the detector reports rows equal to the training rows as anomalies with score and severity 0.", "quantifier": "every well-behaved environment, every reachable detector, every answered request whose filled table is constant", "why_tests_cant": "Holds for all networks, table lengths and parameters.", "anchors": ["src/anomaly_detector/multivariate/model.py:MultivariateAnomalyDetector.predict", "src/anomaly_detector/multivariate/util.py:get_threshold"]}
{"id": "C113", "title": "A column called timestamp", "statement": "Intended: a column called timestamp is not a variable. Actual: it is a variable of the network but gets no weight; a multivariate fit on a table with distinct column names, one of them timestamp, in which some epoch has a loss below infinity returns normally only if there is exactly one other column. A table that is accepted with another name for the column raises ValueError.", "quantifier": "every well-behaved environment, reachable detector, table with distinct column names and params", "why_tests_cant": "Rules out success for all data, sizes and networks.", "anchors": ["src/anomaly_detector/multivariate/util.py:get_multiple_variables_pct_weight_score", "src/anomaly_detector/multivariate/model.py:MultivariateAnomalyDetector.fit", "src/anomaly_detector/multivariate/model.py:MultivariateAnomalyDetector.inference"]}
{"id": "C114", "title": "What the fusion of the detectors flags", "statement": "In a pass of the dynamic threshold model a point is flagged exactly if the ESD test or the z-score test proposes it in some direction: the limit on the number of anomalies drops no proposal. In the seasonal model a point is flagged exactly if one of these two tests proposes it on the deseasonalised series, or the ESD test of the remainder proposes it and the points of the former and those ranked before it leave room below the limit.", "quantifier": "every well-behaved environment, series, trend, alpha, ratio, period and mode for which the model answers", "why_tests_cant": "An exact characterisation over all series.", "anchors": ["src/anomaly_detector/univariate/model/detect.py:detect", "src/anomaly_detector/univariate/model/dynamic_threshold.py:detect_anomaly", "src/anomaly_detector/univariate/model/seasonal_series.py:detect_anomaly"]}
{"id": "C115", "title": "The latest point in the two modes", "statement": "Intended: LATEST mode judges the latest point as ENTIRE mode does. Actual: without a period, with a granularity other than minutely and secondly, at sensitivity 100 and if at most 60% of the values fall into one of 20 bins of their histogram, a latest point that ENTIRE mode reports is reported by LATEST mode too, unless its own expected value is within 1e-8 of the value. In one pass of the dynamic threshold model with the same ratio both modes agree on the latest point; in the seasonal model with the same decomposition ENTIRE implies LATEST, and not conversely. If more than 60% fall into one bin, LATEST mode can miss a latest point that ENTIRE mode reports.", "quantifier": "every well-behaved environment, data frame and params answered in both modes; two counterexamples", "why_tests_cant": "Relates two runs for all series.", "anchors": ["src/anomaly_detector/univariate/model/detect_model.py:AnomalyDetectionModel.__detect_with_model_selection", "src/anomaly_detector/univariate/model/detect_model.py:AnomalyDetectionModel.__refine_max_ratio", "src/anomaly_detector/univariate/detectors/esd_filter.py:ESD.detect"]}
{"id": "C116", "title": "NaN as maxAnomalyRatio", "statement": "Intended: a maxAnomalyRatio outside (0, 0.49] is refused with its error code. Actual: NaN passes that check, and a request that is answered raises ValueError if only its maxAnomalyRatio is replaced by NaN.", "quantifier": "every well-behaved environment, detector, data frame and answered params without the key \"indices\"", "why_tests_cant": "Every path through the models.", "anchors": ["src/anomaly_detector/univariate/univariate_anomaly_detection.py:UnivariateAnomalyDetector.parse_arg", "src/anomaly_detector/univariate/model/dynamic_threshold.py:detect_anomaly", "src/anomaly_detector/univariate/model/spectral_residual_model.py:spectral_residual_detection"]}
{"id": "C117", "title": "Which requests are answered", "statement": "Intended: every valid request is answered. Actual, if the library calls return: a request whose parameters and series pass all checks, whose rows have different grid positions and whose maxAnomalyRatio is not NaN is answered (1) if period is 0 or 1, (2) if period is absent, the granularity is not 'microsecond' and maxAnomalyRatio is absent or at most 3/8, (3) if a period above 1 is given, at most half of the grid is missing, more than two periods fit into the analysed series (the grid if gaps are filled, else the rows) and maxAnomalyRatio is absent or at most 3/8. If at most two periods fit, or if two rows have the same grid position, it raises ValueError. With maxAnomalyRatio 0.49 a request as in (3) can raise ValueError.", "quantifier": "every well-behaved environment whose trend fits (of 12 points or more), decompositions (of more than two periods) and splines (of 4 points or more) return; every detector with a mode, data frame and admissible params without a detector dict; either the series has no gaps, or imputeMode is not 'fixed' and fixedValue is finite; one counterexample for the ratio; for the numeric routines of the repository this follows from the same assumption on rstl, the filters and the periodogram of seasonal, and scipy", "why_tests_cant": "No exception on any of infinitely many inputs.", "anchors": ["src/anomaly_detector/univariate/univariate_anomaly_detection.py:UnivariateAnomalyDetector.predict", "src/anomaly_detector/univariate/model/detect_model.py:AnomalyDetectionModel.detect", "src/anomaly_detector/univariate/model/seasonal_series.py:detect_ts", "src/anomaly_detector/univariate/filling_up/fill_up.py:FillingUpProcess.__init__"]}
{"id": "C118", "title": "Options that ask for more output", "statement": "Intended: needDetectorId, needFillUpConfirm and needSpectrumPeriod add information to the answer. Actual: they add nothing. Requests that differ only in needDetectorId or needFillUpConfirm have the same outcome and leave the same detector. A request with needSpectrumPeriod that is answered is answered in the same way without it; with period 0 the option has no influence on the outcome at all. With a period above 0 it can turn an answer into an exception, because the discarded period is computed all the same.", "quantifier": "every environment (well-behaved for needSpectrumPeriod), detector, data frame, params and value of the option; for needSpectrumPeriod without own indices, and either the series has no gaps, or imputeMode is not 'fixed' and fixedValue is finite", "why_tests_cant": "An option can matter for one combination of the others that no test tries.", "anchors": ["src/anomaly_detector/univariate/univariate_anomaly_detection.py:UnivariateAnomalyDetector.parse_arg", "src/anomaly_detector/univariate/univariate_anomaly_detection.py:UnivariateAnomalyDetector.predict", "src/anomaly_detector/univariate/model/detect_model.py:AnomalyDetectionModel.get_spectrum_period"]}
{"id": "C119", "title": "Training", "statement": "In training mode the network computes, on a batch of at least two windows with noise added, the formulas of the evaluation mode with attention weights dropped or doubled, fresh latent samples, and normalisation by the mean and variance of the batch, which makes the normalised values of a channel average to its bias; running statistics move by a tenth towards those of the batch. A single window is a ValueError. The loss is the sum over the samples of squared forecast error plus beta times squared reconstruction error and divergence; after a step the network has the parameters the optimizer returns for the gradient of this loss, the running statistics after the batch, and its old fixed latent noise. The generator is seeded once; the new network takes the first numbers, each epoch takes its order from the generator as left before, and the steps go on from there. Whatever a program does, every network in the detector or in a checkpoint has the layer sizes of the configuration stored with it, no negative running variance, and the latent noise determined by the seed and the sizes. Training as modelled satisfies every assumption made by the other multivariate properties.", "quantifier": "every random generator, initial network, gradient and optimizer whose networks have the sizes asked for; every batch, network, configuration; every sequence of calls", "why_tests_cant": "Training is random; the formulas hold for all weights, draws and batches, and the invariant for all histories.", "anchors": ["src/anomaly_detector/multivariate/model.py:MultivariateAnomalyDetector.train_epoch", "src/anomaly_detector/multivariate/model.py:MultivariateAnomalyDetector.fit", "src/anomaly_detector/multivariate/module.py:MultivariateGraphAttnDetector.forward", "src/anomaly_detector/multivariate/module.py:GAT.forward", "src/anomaly_detector/multivariate/module.py:VAE"]}
{"id": "C120", "title": "Parameters that training does not read", "statement": "Intended: dropout and gamma influence training. Actual: both are accepted and never read (the dropout probability is fixed at 0.5). Two programs whose params differ only in the values or presence of these two keys get the same outcome from every call, and the same trained weights.", "quantifier": "every random generator, gradient and optimizer; every start state; every sequence of fit, predict, load_checkpoint, new detectors, replaced files and params", "why_tests_cant": "Absence of influence is a statement about all pairs of runs.", "anchors": ["src/anomaly_detector/multivariate/contract.py:MultiADConfig", "src/anomaly_detector/multivariate/module.py:GAT", "src/anomaly_detector/multivariate/model.py:MultivariateAnomalyDetector.fit"]}
{"id": "C121", "title": "How a training ends", "statement": "Intended: fit with any positive batch_size trains. Actual: fit on an accepted table has one of these ends, decided by counting. No training row: ValueError. No training sample and a loader that refuses empty datasets: ValueError. A kernel longer than the window and a batch to feed it: RuntimeError. batch_size 1 and a training sample: ValueError (batch normalisation refuses a single sample). Up to here nothing is written and the detector keeps its network. Otherwise, if some epoch had a finite loss and the best network is finite: ValueError if no training row has a full window before it, RuntimeError if the kernel is longer than the window, IndexError if the rank of the threshold is not below the number of scores (level 1.0), and else fit returns; in all these cases the new network is in the detector and in the checkpoint, and after an exception it stands beside the threshold of before the call. If no epoch had a finite loss, fit raises FileNotFoundError when there is no checkpoint to load.", "quantifier": "every library satisfying the stated laws, every detector state and file system, every accepted table without a column called timestamp and params; finite or absent best networks as stated", "why_tests_cant": "The ends depend on the interplay of row counts, ratios, window, kernel, interval, horizon, batch size and level for all values.", "anchors": ["src/anomaly_detector/multivariate/model.py:MultivariateAnomalyDetector.fit", "src/anomaly_detector/multivariate/model.py:MultivariateAnomalyDetector.compute_thresholds", "src/anomaly_detector/multivariate/model.py:MultivariateAnomalyDetector.load_checkpoint", "src/anomaly_detector/multivariate/dataset.py:MultiADDataset.get_x_end_idx"]}
{"id": "C122", "title": "How predict ends when the table does not fit", "statement": "Intended: predict on a table with another number of columns than the training table is rejected with an explanation. Actual: nothing checks the number of columns, and the end of a usable request after a fit with a finite epoch loss is decided by counting. Fewer rows than input_size + threshold_window: ValueError. Otherwise: as many columns as in training, results; one column where several were trained, IndexError (the column is broadcast over all variables, scored, and fails when the result is named); several columns where one was trained, RuntimeError from the network; any other number, ValueError from the normalisation.", "quantifier": "every library satisfying the stated laws, every reachable detector state, successful fit, and usable predict table and params", "why_tests_cant": "All pairs of numbers of rows and columns, and all detectors.", "anchors": ["src/anomaly_detector/multivariate/model.py:MultivariateAnomalyDetector.predict", "src/anomaly_detector/multivariate/model.py:MultivariateAnomalyDetector.inference", "src/anomaly_detector/multivariate/model.py:MultivariateAnomalyDetector._pack_response", "src/anomaly_detector/multivariate/util.py:minmax_normalize"]}
{"id": "C123", "title": "Adding a constant to a variable changes nothing", "statement": "A program that starts untrained and makes any sequence of calls (fit and predict on tables with the same column names, loading checkpoints, new detectors, lost or damaged files, other params dicts) gets the same outcome for every call, result by result and error by error, when a constant is added to each variable in all its tables. The tables must be without gaps, or have an observed value in every column and be filled by Previous, Subsequent or Linear; and in the tables passed to fit the constants must not change which columns count as volatile. Columns whose values differ from each other by no more than the size of each value never do. The statement is about exact arithmetic on the values.", "quantifier": "every library satisfying the stated laws, every program, table and choice of constants", "why_tests_cant": "All programs, tables and constants.", "anchors": ["src/anomaly_detector/multivariate/util.py:minmax_normalize", "src/anomaly_detector/multivariate/dataset.py:MultiADDataset", "src/anomaly_detector/multivariate/model.py:MultivariateAnomalyDetector.fit", "src/anomaly_detector/multivariate/model.py:MultivariateAnomalyDetector.predict", "src/anomaly_detector/common/data_processor.py:MultiADDataProcessor.fill_na"]}
{"id": "C124", "title": "Training starts afresh, and asking leaves no trace", "statement": "What a multivariate fit returns or raises, and the detector it leaves, are determined by its params and table: they are the same as on a new detector without files, whatever the detector was trained with before and whatever is in the save directory. The one exception is a training that on a new detector without files raises FileNotFoundError (no epoch gives a usable loss): it can pick up an old checkpoint instead. Two detectors with different histories trained with the same params and table give the same answers to all later predict calls. And predict on a detector with a network changes neither the detector nor any file, whatever its params, table and outcome, so later calls have the outcomes they would have had without it.", "quantifier": "every environment, table, params, pair of histories and sequence of later calls", "why_tests_cant": "All histories and call sequences.", "anchors": ["src/anomaly_detector/multivariate/model.py:MultivariateAnomalyDetector.fit", "src/anomaly_detector/multivariate/model.py:MultivariateAnomalyDetector.predict", "src/anomaly_detector/multivariate/model.py:save_checkpoint", "src/anomaly_detector/multivariate/model.py:load_checkpoint", "src/anomaly_detector/multivariate/model.py:_process_data_and_params"]}
{"id": "C125", "title": "Options of a model that is not used have no influence", "statement": "threshold is read by the spectral residual model only: if the request names a period above 1, or its granularity is neither minutely with an interval below 60 nor secondly with an interval below 3600, then two requests that differ in nothing but an admissible threshold (absent or a float) have the same outcome, leave the same detector, and leave params that differ only there. alpha is not read by that model: if the request names a period of 0 or 1, has one of those two granularities, names no way of filling gaps, and the median absolute deviation of the values over the Gaussian constant is at least 1e-8, then the same holds for two admissible values of alpha (absent or a number that is not at most 0). Where an option is read it can change the flags.", "quantifier": "every environment, detector, table, and pair of requests that differ at the one key; params without indices, and no gap to be filled with a non-finite constant", "why_tests_cant": "All series, and all pairs of values of the option.", "anchors": ["src/anomaly_detector/univariate/model/detect_model.py:AnomalyDetectionModel.__detect_with_model_selection", "src/anomaly_detector/univariate/model/detect_model.py:should_trigger_sr", "src/anomaly_detector/univariate/univariate_anomaly_detection.py:UnivariateAnomalyDetector.parse_arg"]}
{"id": "C126", "title": "The unit of time", "statement": "Intended: requests that say the same step in different units (one day, 24 hours, 86400 seconds) are the same request. Actual: for any two of weekly, daily, hourly, minutely and secondly with equal steps, if the request names a period, the two requests end alike, answer alike but for the suggested window, leave the same detector and params that differ only in the unit; if that period is not 0 the answers are equal. A request in minutes and one in seconds with equal steps are the same also without a named period. Otherwise the unit matters: with period 0 the suggested window depends on it, and without a named period the period that is found depends on it, because the guess for daily, weekly and monthly data does not take the interval into account (points seven days apart called daily are tried with period 7, that is seven weeks).", "quantifier": "every environment, detector, table, step, and pair of requests that differ only in granularity and customInterval; params without indices, and no gap to be filled with a non-finite constant", "why_tests_cant": "All series, steps and other options.", "anchors": ["src/anomaly_detector/univariate/util/helpers.py:get_indices_from_timestamps", "src/anomaly_detector/univariate/period/simple.py:SimpleDetector.guess_period", "src/anomaly_detector/univariate/model/detect_model.py:should_trigger_sr", "src/anomaly_detector/univariate/univariate_anomaly_detection.py:UnivariateAnomalyDetector.predict"]}
{"id": "C127", "title": "Raising level never adds anomalies", "statement": "Take two programs that do the same with multivariate detectors and pass the same params, except that the second may pass a higher level wherever the first passes some level (0.8 if the key is absent). If no fit of the second raises IndexError, every call raises the same in both or returns in both. The results of every predict then have the same index, score and interpretation in both programs, every anomaly of the second is an anomaly of the first with the same severity, and the other results of the second have severity 0. A fit that returns with the higher level returns with the lower one and produces the same weights.", "quantifier": "every random generator, gradient and optimizer; every start state; every sequence of fit, predict, load_checkpoint, new detectors, replaced files and params; all levels that are nonnegative numbers", "why_tests_cant": "A comparison of all pairs of runs.", "anchors": ["src/anomaly_detector/multivariate/model.py:MultivariateAnomalyDetector.compute_thresholds", "src/anomaly_detector/multivariate/model.py:MultivariateAnomalyDetector.predict", "src/anomaly_detector/multivariate/model.py:MultivariateAnomalyDetector.fit", "src/anomaly_detector/multivariate/contract.py:MultiADConfig"]}
{"id": "C128", "title": "horizon moves the targets of training only", "statement": "Intended: a detector trained with horizon k forecasts k rows ahead and is validated and used as such. Actual: in a fit with horizon k, the target of a training window is the row k places behind it, but the target of every validation window is the next row, and the trained threshold is an order statistic of scores that compare the forecast of a window with the next row. Programs that use trained models (no fit) have the same outcomes when their checkpoints are replaced by ones that differ only in horizon, interval, epochs, train_ratio, val_ratio, level, save, stored score range or other training parameters.", "quantifier": "every environment, reachable state, table, params and horizon; every sequence of predict, load_checkpoint, new detectors, replaced files and params", "why_tests_cant": "All horizons, tables and networks.", "anchors": ["src/anomaly_detector/multivariate/model.py:MultivariateAnomalyDetector.fit", "src/anomaly_detector/multivariate/model.py:MultivariateAnomalyDetector.inference", "src/anomaly_detector/multivariate/model.py:MultivariateAnomalyDetector.compute_thresholds", "src/anomaly_detector/multivariate/dataset.py:MultiADDataset.__getitem__"]}
{"id": "C129", "title": "Labels of the rows count by their order only", "statement": "Take any program of multivariate calls (fit, predict, loading, new detectors, other params, lost or damaged files) and give the tables of its calls other row labels, each table by a map of its own that keeps the order of its labels. Then every call ends the same way and leaves the same detector, files and params, and the results are the same but for their labels, which are the new ones. In particular the detector does not notice uneven distances between timestamps, also not when it fills missing cells by interpolation.", "quantifier": "all programs of calls, all states they start from, all tables with distinct row labels, one order-keeping map of labels per call", "why_tests_cant": "the claim compares two runs for every possible relabelling of every table of every program; tests see a few labelled tables", "anchors": ["src/anomaly_detector/common/data_processor.py:MultiADDataProcessor.process", "src/anomaly_detector/common/data_processor.py:MultiADDataProcessor.fill_na", "src/anomaly_detector/multivariate/model.py:MultivariateAnomalyDetector.fit", "src/anomaly_detector/multivariate/model.py:MultivariateAnomalyDetector.predict", "src/anomaly_detector/multivariate/model.py:MultivariateAnomalyDetector._pack_response"]}
{"id": "C130", "title": "Raising maxAnomalyRatio: what the three models keep", "statement": "Intended: allowing a larger share of anomalies never removes one that was reported with the smaller share. Actual: let the detector work in ENTIRE mode at sensitivity 100, and let the request name a period of at most 1, minutes (fewer than 60 at a time) or seconds (fewer than 3600 at a time) as granularity, no filling mode, and values whose scaled median absolute deviation is not negligible (then the spectral residual model is used). If both calls answer, the two answers have the same length, and every point reported as an anomaly with the smaller share is reported with the larger share. With the dynamic threshold model it fails: there is a library behaviour and a daily series where a point is an anomaly with maxAnomalyRatio 0.29 and not with 0.36, and fewer points are reported in all. It holds there for series that the tests find stationary, apart from points whose value is within 1e-8 of the expected value of the second answer (a named period of at most 1, no filling mode, and not one of the fine granularities above). For such series it also holds in LATEST mode, if the histogram never gives a bin more than the whole series. With the seasonal model (a named period above 1, no missing points) it fails too: there is a library behaviour and a series where a value is an anomaly with maxAnomalyRatio 0.05 and not with 0.1. But a point is lost only if its value is within 1e-8 of the expected value, or if the larger share is used up: the points of the second answer that are reported or within 1e-8 of their expected values are at least as many as the larger share allows in one direction.", "quantifier": "for all library behaviours that satisfy the stated laws, all requests of the kind described, all finite shares r <= r' and all answers; the failures are existence claims", "why_tests_cant": "It compares two calls for every series and every pair of shares; tests fix one share. The failing case needs a series where the larger budget lets the detectors propose more points, which changes the fused ranking and the expected values.", "anchors": ["src/anomaly_detector/univariate/model/spectral_residual_model.py: spectral_residual_detection", "src/anomaly_detector/univariate/model/dynamic_threshold.py: dynamic_threshold_detection", "src/anomaly_detector/univariate/model/detect.py: detect", "src/anomaly_detector/univariate/model/detect_model.py: detect", "src/anomaly_detector/univariate/model/seasonal_series.py: detect_ts"]}
{"id": "C131", "title": "More epochs keep the same model or a strictly better one", "statement": "Let the same detector be trained twice on the same table, with params that differ in epochs only, m epochs the first time and n >= m the second time, and let both calls return. Unless no epoch of the first training had a validation loss below infinity (which takes a checkpoint in the save directory before the call, for fit to return), exactly one of two things is possible: both keep the network of the same epoch, and then every later use of the two detectors and their checkpoints (any sequence of predict calls, loads, new detectors, replaced files and params, without another fit) has the same outcomes; or the second keeps the network of an epoch the first did not reach, and its validation loss is strictly smaller. Both trainings have the same losses and networks in the epochs they share.", "quantifier": "for all training libraries that satisfy the stated laws (initialisation, optimizer, random numbers), all tables, params, detectors, disks, epoch numbers and programs", "why_tests_cant": "It compares two whole trainings for every optimizer and every pair of epoch numbers, and every program that uses their results; tests train once with a fixed number.", "anchors": ["src/anomaly_detector/multivariate/model.py: MultivariateAnomalyDetector.fit, train_epoch, evaluate_epoch, save_checkpoint, load_checkpoint", "src/anomaly_detector/multivariate/contract.py: MultiADConfig"]}
{"id": "C132", "title": "Raising threshold can add an anomaly", "statement": "Intended: a higher threshold reports fewer anomalies, never a new one. Actual: there is a library behaviour (which series count as stationary) and a series of minutely values, sent with sensitivity 100 and maxAnomalyRatio 1/14, for which a point is reported with threshold 1 and not with threshold 0.5, and another point the other way round: the anomaly the higher threshold suppresses in the series leaves room for one in its differences.", "quantifier": "existence of a library behaviour that satisfies the stated laws and of a request; the intended property is a statement about all of them", "why_tests_cant": "Tests do not compare answers at two thresholds; the failing case needs a series that is not stationary, a full budget at the lower threshold and free budget at the higher one.", "anchors": ["src/anomaly_detector/univariate/model/detect_model.py: merge_with_delta, should_include_delta", "src/anomaly_detector/univariate/model/spectral_residual_model.py: spectral_residual_detection", "src/anomaly_detector/univariate/detectors/spectral_residual.py: SpectralResidual._detect"]}
{"id": "C133", "title": "A series turned upside down", "statement": "Intended: the answer for a series with every sign changed is the answer for the series, turned upside down: the same points are anomalies, positive ones become negative ones and the other way round, expected values change sign, and upper and lower margins change places. Actual: where the spectral residual model answers a whole series, all of this holds for flags, directions and expected values; for the margins it holds with V2 and V3 boundaries, except that a value equal to its expected value keeps its margins. With V1 boundaries it fails for the margins: upper boundaries are cut off at the largest value, but lower boundaries are not cut off at the smallest one when all of them lie below it, so a series can have margins (2, 11) everywhere and, turned upside down, (1, 11).", "quantifier": "every two data frames with the same timestamps and values of opposite sign, every request in ENTIRE mode that names a period of at most 1, minutes (fewer than 60 at a time) or seconds (fewer than 3600 at a time) and no way of filling gaps, with scattered values; both calls answered; every library whose quantiles, trends, spectral residual and stationarity tests are symmetric (satisfiable). The failure for V1 margins: existence of such a library and a series", "why_tests_cant": "Tests use a few series and never their mirror images; the asymmetry of the cut-off needs margins wider than the distance of every point to the smallest value.", "anchors": ["src/anomaly_detector/univariate/model/spectral_residual_model.py: spectral_residual_detection", "src/anomaly_detector/univariate/model/detect_model.py: merge_with_delta, AnomalyDetectionModel.detect", "src/anomaly_detector/univariate/util/refine.py: refine_margins, get_margins_v2", "src/anomaly_detector/univariate/util/boundary_utils.py: calculate_margin"]}
{"id": "C134", "title": "The choice of a boundary version", "statement": "The boundary version shapes the bands around the expected values and with them what is reported, not what is found. A request that is answered with version V2 or V3 is answered with V1 too, with the same number of items, and item for item the same timestamp, expected value, period and suggested window; at sensitivity 100 also with the same anomalies. V2 and V3 have the same outcome in every request, and so do V1, None and no version at all. Hence an anomaly that is reported with some version at some sensitivity is reported with every version at sensitivity 100, if that request is answered. Below sensitivity 100 each of V1 and V2 can report anomalies that the other does not report. The converse about answers fails: V2 and V3 need a trend, so a request that V1 answers can fail with V2.", "quantifier": "every detector, data argument and two requests that differ only in the boundary version (and, for the last consequence, in the sensitivity), without the internal option indices and without infinite fill values; every library that meets the laws of Env.WF. The failures: existence of a library and a series", "why_tests_cant": "Tests run a few series with one version each; that the version cannot change an expected value or the set of points that can be reported at all is about pairs of executions on all inputs.", "anchors": ["src/anomaly_detector/univariate/util/fields.py: BoundaryVersion", "src/anomaly_detector/univariate/univariate_anomaly_detection.py: UnivariateAnomalyDetector.predict, parse_arg", "src/anomaly_detector/univariate/model/detect_model.py: AnomalyDetectionModel.detect", "src/anomaly_detector/univariate/util/refine.py: get_margins, get_margins_v1, get_margins_v2"]}
{"id": "C135", "title": "The unit of the values", "statement": "Intended: when every value is multiplied by the same positive number, as when metres become millimetres, the same points are reported as anomalies, with the same directions, period and suggested window, and expected values and margins are multiplied by that number. Actual: this holds for the spectral residual model with V1 boundaries, in ENTIRE and LATEST mode, as long as the distance of each reported value from its expected value is below 1e-8 in both units or in neither. With V2 boundaries it fails: a series can have three anomalies in millimetres and none in metres. With V1 boundaries it fails for very small numbers.", "quantifier": "every two data frames with the same timestamps, where the values of the second are c > 0 times those of the first; every request with V1 boundaries that names a period of at most 1, minutes (fewer than 60 at a time) or seconds (fewer than 3600 at a time) and no way of filling gaps, with values scattered in both units; both calls answered; every library whose quantiles and square roots are multiplied accordingly and whose stationarity tests, histogram and, for the lists it is applied to, spectral residual transform do not see the unit (satisfiable). The failures: existence of such a library and a series", "why_tests_cant": "Tests hold a few series in one unit each; that the constants 0.3 and 1e-8 in the code are compared with quantities that have a unit shows only when the same series is given in two units.", "anchors": ["src/anomaly_detector/univariate/model/spectral_residual_model.py: spectral_residual_detection", "src/anomaly_detector/univariate/model/detect_model.py: merge_with_delta, AnomalyDetectionModel.detect", "src/anomaly_detector/univariate/util/refine.py: refine_margins, get_margins_v1", "src/anomaly_detector/univariate/util/boundary_utils.py: calculate_boundary_units"]}
{"id": "C136", "title": "The unit of a variable", "statement": "Intended: when one variable is multiplied by the same positive number in the training table and in the table to predict on, as when its unit changes, the same rows are reported as anomalies. Actual: the normalised values the network is given move by at most 1e-8 / (max - min + 1e-8) when the unit gets smaller, but the answer can change: rows reported in one unit are not reported in another, because volatility adds 0.0001 to every value and normalisation adds 1e-8 to every range.", "quantifier": "the bound: every row and all vectors of minima and maxima that contain it, every vector of factors of at least 1, every clipping range. The failures: existence of tables for a training library that meets the laws of the trusted base, in whole runs of fit and predict", "why_tests_cant": "Tests train on one table in one unit and never compare with another unit; the constants matter only for variables whose values are small.", "anchors": ["src/anomaly_detector/multivariate/util.py: minmax_normalize, get_multiple_variables_pct_weight_score", "src/anomaly_detector/multivariate/model.py: MultivariateAnomalyDetector.fit, MultivariateAnomalyDetector.predict"]}
{"id": "C137", "title": "The scale and the zero point of the values", "statement": "Intended: when the same series is given on another scale, where x becomes c * x + b as from degrees Celsius to Fahrenheit, the same points are reported as anomalies, with the same directions, period and suggested window, and an expected value e becomes c * e + b. Actual: this holds for the dynamic threshold model with sensitivity 100, for all boundary versions, in ENTIRE and LATEST mode, as long as the distance of each reported value from its expected value is below 1e-8 on both scales or on neither. With V1 boundaries and b = 0 it holds for every sensitivity, and the margins are multiplied by c. Below sensitivity 100 the zero point decides: a series can have two anomalies in degrees Celsius and none when every value is raised by 273.", "quantifier": "every two data frames with the same timestamps, where a value x of the first is c * x + b in the second, c > 0; every request that names a period of at most 1, neither minutes (fewer than 60 at a time) nor seconds (fewer than 3600 at a time) and no way of filling gaps; series whose values, and whose differences where these are looked at, are not all equal; both calls answered; every library whose fitted trend follows the scale and whose stationarity tests and histogram do not see it (satisfiable). The failure: existence of such a library and a series", "why_tests_cant": "Tests hold a few series on one scale each. Whether normalisation, trend, differences and critical values cancel the scale exactly is a statement about all series and all pairs of constants.", "anchors": ["src/anomaly_detector/univariate/model/dynamic_threshold.py: dynamic_threshold_detection", "src/anomaly_detector/univariate/model/detect_model.py: merge_with_delta, AnomalyDetectionModel.detect", "src/anomaly_detector/univariate/util/refine.py: get_margins, get_margins_v1, get_anomaly_detector_margins"]}
{"id": "C138", "title": "Raising alpha", "statement": "Intended: when alpha is raised, so that the critical values of the ESD test become lower, no anomaly is lost. Actual, with sensitivity 100: for the dynamic threshold model this holds if the tests find the series stationary, in ENTIRE and LATEST mode: every point reported at the first alpha is reported at the second, unless its value is within 1e-8 of the expected value that the second answer gives for it. For other series the differences are examined too, for what the limit on the share of anomalies leaves; a higher alpha can leave less of it, and a point that was reported is not reported any more. The seasonal model can lose a point as well. In ENTIRE mode, without gaps, that only happens when the second answer has as many points that are reported, or within 1e-8 of their expected values, as maxAnomalyRatio allows in one direction.", "quantifier": "every data frame and every two requests that differ in alpha only and name a period; for the dynamic threshold model a period of at most 1, neither minutes (fewer than 60 at a time) nor seconds (fewer than 3600 at a time) and no way of filling gaps; every library with no critical value greater for the second alpha; both calls answered. The failures: existence of such a library and a series", "why_tests_cant": "Tests use one or two values of alpha on a few series. That the selection by ranks is monotone in the critical values is a statement about all series, and that a second detector breaks it only shows on series where two of them compete for the limit.", "anchors": ["src/anomaly_detector/univariate/detectors/esd_filter.py: ESD.detect", "src/anomaly_detector/univariate/model/dynamic_threshold.py: dynamic_threshold_detection", "src/anomaly_detector/univariate/model/seasonal_series.py: seasonal_series_detection", "src/anomaly_detector/univariate/model/detect_model.py: merge_with_delta"]}
