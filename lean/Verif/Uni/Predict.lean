import Verif.Uni.Margins
import Verif.Uni.Period

/-!
# The public univariate API

Model of `univariate/univariate_anomaly_detection.py` (`UnivariateAnomalyDetector` and its two subclasses) and of
the class `AnomalyDetectionModel` (`univariate/model/detect_model.py:97-333`).
-/

namespace Verif

/-- Why a run of `AnomalyDetectionModel` stops without a result. `unmodelled`: control leaves the modelled part
(NaN or infinite data, `None` inside the detected series); `predict` then returns an arbitrary outcome. -/
inductive Stop where
  | err (e : PyErr)
  | unmodelled

/-- lift an ordinary Python computation -/
def lift {α} : Except PyErr α → Except Stop α
  | .ok a => .ok a
  | .error e => .error (.err e)

/-! ## Arguments -/

/-- The `data` argument. `notFrame hasEmpty` is an object that is not a DataFrame, with or without an attribute
`empty`. A frame has the optional columns `timestamp` and `value`; a row is the pair of cells. -/
inductive DataArg where
  | none
  | notFrame (hasEmpty : Bool)
  | frame (hasTs hasValue : Bool) (rows : List (PyVal × PyVal))

/-- `model_params`: the keyword arguments of `AnomalyDetectionModel`; `none` keeps the default. -/
structure ModelParams where
  granularity : Granularity
  interval : Option Int
  alpha : Option PyFloat
  ratio : Option PyFloat
  threshold : Option PyFloat
  fillMode : Option FillUpMode
  fixed : Option PyFloat
  needSpectrum : Bool
  needTrend : Bool
  detector : Option (List (String × PyVal))
  indices : PyVal

/-- `float(cell)` -/
def cellFloat (E : Env) : PyVal → Except PyErr PyFloat
  | .bool b => .ok (.fin (if b then 1 else 0))
  | .int i => .ok (.fin i)
  | .float f => .ok f
  | .str s => match E.parseFloat s with
    | some f => .ok f
    | none => .error .valueError
  | _ => .error .typeError

/-- `[float(x['value']) for x in series]` -/
def cellValues (E : Env) (hasValue : Bool) (rows : List (PyVal × PyVal)) : Except PyErr (List PyFloat) :=
  if hasValue then rows.mapM fun r => cellFloat E r.2
  else if rows.length = 0 then .ok [] else .error .keyError

/-- the rational behind a finite float -/
def finite? : PyFloat → Option ℚ
  | .fin q => some q
  | _ => none

/-! ## Validation -/

/-- `is_timestamp_ascending` (28-38): 0, -1 or -2; comparisons with NaT are false. -/
def ascendingCode : List (Option Stamp) → Int
  | some a :: some b :: t =>
    if b.ns < a.ns then -1 else if a.ns = b.ns then -2 else ascendingCode (some b :: t)
  | _ :: t => ascendingCode t
  | [] => 0

/-- `all(isinstance)`: the stamps, if none is NaT -/
def allStamps : List (Option Stamp) → Option (List Stamp)
  | [] => some []
  | some a :: t => (allStamps t).map (a :: ·)
  | none :: _ => none

/-- The value and size half of `series_validator` (41-64), or the error code it returns. -/
def validateValues (E : Env) (hasTs hasValue : Bool) (rows : List (PyVal × PyVal)) (needTs : Bool) :
    Except String (List PyFloat × List (Option Stamp)) :=
  if rows.length < 12 then .error "InvalidSeries"                               -- 46-47
  else if 8640 < rows.length then .error "InvalidSeries"                        -- 48-49
  else match cellValues E hasValue rows with                                    -- 51, 57-58
    | .error _ => .error "BadArgument"
    | .ok vs =>
      let stamps : Option (List (Option Stamp)) :=
        if needTs then                                                          -- 52-53
          if hasTs then
            match E.toDatetime (rows.map (·.1)) with
            | .ok l => some l
            | .error _ => none
          else none
        else some []
      match stamps with
      | none => .error "BadArgument"                                            -- 57-58
      | some ts =>
        if vs.any (fun v => v.lt (.fin (-(10 ^ 100)))) || vs.any (fun v => (PyFloat.fin (10 ^ 100)).lt v)
        then .error "InvalidSeries"                                             -- 60-61
        else if vs.any PyFloat.isNaN then .error "BadArgument"                  -- 63-64
        else .ok (vs, ts)

/-- `params.get('period', None)` after `parse_arg`: a nonnegative integer or absent. -/
def paramPeriod (p : Params) : Option Nat := ((p "period").bind PyVal.asInt?).map Int.toNat

/-- `series_validator(series, params)` (40-87): the error code it returns, `none` for `None`. It stores the
positions in `params["indices"]`. The second disjunct of 82 compares a string with an enum member and is false. -/
def seriesValidator (E : Env) (hasTs hasValue : Bool) (rows : List (PyVal × PyVal)) (g : Granularity)
    (interval : Option Int) : PM (Option String) :=
  match validateValues E hasTs hasValue rows (decide (g ≠ .none)) with
  | .error c => pure (some c)
  | .ok (vs, ts) =>
    if g ≠ .none then                                                           -- 67
      if ascendingCode ts ≠ 0 then pure (some "InvalidSeries")                  -- 68-72
      else match allStamps ts with
        | none => PM.throw .valueError                                          -- NaT.timestamp()
        | some stamps =>
          match getIndices g interval stamps with                               -- 74-75
          | .error e => PM.throw e
          | .ok (.invalid _) => do                                              -- 74, 76-78
            PM.set "indices" .none
            pure (some "InvalidSeries")
          | .ok (.ok idx) => do                                                 -- 74, 80-83
            PM.set "indices" (PyVal.ofIntList idx)
            let p ← PM.get
            match paramPeriod p with
            | some n => pure (if idx.getLastD 0 + 1 < n * 2 + 1 then some "InvalidModelArgument" else none)
            | none => pure none
    else do                                                                     -- 85
      PM.set "indices" (PyVal.ofIntList ((List.range vs.length).map Int.ofNat))
      pure none

/-! ## parse_arg -/

/-- 97-104 -/
def parseGranularity : PM Granularity := do
  let p ← PM.get
  match p "granularity" with
  | none => do PM.set "granularity" (.gran .none); pure .none
  | some (.str s) =>
    match Granularity.ofName s with
    | some g => do PM.set "granularity" (.gran g); pure g
    | none => PM.early "InvalidGranularity"
  | some v => if v.hashable then PM.early "InvalidGranularity" else PM.throw .typeError

/-- 108-115 -/
def parseInterval : PM (Option Int) := do
  let p ← PM.get
  match p "customInterval" with
  | none => do PM.set "customInterval" .none; pure none
  | some v => match v.asInt? with
    | some i => if i ≤ 0 then PM.early "InvalidCustomInterval" else pure (some i)
    | none => PM.early "InvalidCustomInterval"

/-- 117-121 -/
def parsePeriod : PM Unit := do
  let p ← PM.get
  match p "period" with
  | none => pure ()
  | some v => match v.asInt? with
    | some i => if i < 0 then PM.early "InvalidPeriod" else pure ()
    | none => PM.early "InvalidPeriod"

/-- 124-129 -/
def parseAlpha : PM (Option PyFloat) := do
  let p ← PM.get
  match p "alpha" with
  | none => pure none
  | some v => match v.asNumber? with
    | some f => if f.le (.fin 0) then PM.early "InvalidModelArgument" else pure (some f)
    | none => PM.early "InvalidModelArgument"

/-- 131-136; only a `float` is admitted -/
def parseRatio : PM (Option PyFloat) := do
  let p ← PM.get
  match p "maxAnomalyRatio" with
  | none => pure none
  | some v => match v.asFloat? with
    | some f => if f.le (.fin 0) || (PyFloat.fin (49 / 100)).lt f then PM.early "InvalidModelArgument" else pure (some f)
    | none => PM.early "InvalidModelArgument"

/-- 138-144 -/
def parseSensitivity : PM Unit := do
  let p ← PM.get
  match p "sensitivity" with
  | none => PM.set "sensitivity" (.int 99)
  | some v => match v.asInt? with
    | some i => if i < 0 ∨ 100 < i then PM.early "InvalidModelArgument" else pure ()
    | none => PM.early "InvalidModelArgument"

/-- 146-151 -/
def parseThreshold : PM (Option PyFloat) := do
  let p ← PM.get
  match p "threshold" with
  | none => pure none
  | some v => match v.asFloat? with
    | some f => pure (some f)
    | none => PM.early "InvalidModelArgument"

/-- `params.get(k, False)` stored back (153, 193, 194) -/
def parseDefaultFalse (k : String) : PM Bool := do
  let p ← PM.get
  let v := (p k).getD (.bool false)
  PM.set k v
  pure v.truthy

/-- a key that is present and not `None` -/
def presentKey (p : Params) (k : String) : Option PyVal :=
  match p k with
  | some .none => none
  | o => o

/-- 155-191: the fill mode and the constant to fill. In the `imputeMode == 'fixed'` branch the constant given by
the caller is checked but not passed on (163-169). -/
def parseFill : PM (Option FillUpMode × Option PyFloat) := do
  let p ← PM.get
  match presentKey p "imputeMode" with
  | some v =>
    match v with
    | .str s => match FillUpMode.ofValue s with
      | none => PM.early "InvalidImputeMode"
      | some .fixed =>
        match (p "imputeFixedValue").bind PyVal.asNumber? with
        | none => PM.early "InvalidImputeFixedValue"
        | some _ => pure (some .fixed, none)
      | some .zero => pure (some .fixed, some (.fin 0))
      | some m => pure (some m, none)
    | _ => PM.early "InvalidImputeMode"
  | none =>
    match presentKey p "fillUpMode" with
    | none => pure (none, none)
    | some v =>
      match v with
      | .str s => match FillUpMode.ofValue s with
        | none => PM.early "InvalidFillUpMode"
        | some .fixed =>
          match (p "fixedValue").bind PyVal.asNumber? with
          | none => PM.early "InvalidFixedValue"
          | some f => pure (some .fixed, some f)
        | some m => pure (some m, none)
      | _ => PM.early "InvalidFillUpMode"

/-- 196-203: the requested version, `V1` if absent or `None` -/
def boundaryName (p : Params) : PM BoundaryVersion :=
  match presentKey p "boundaryVersion" with
  | none => pure .V1
  | some (.str s) => match BoundaryVersion.ofName s with
    | some b => pure b
    | none => PM.early "InvalidBoundaryVersion"
  | some v => if v.hashable then PM.early "InvalidBoundaryVersion" else PM.throw .typeError

/-- 196-206 -/
def parseBoundary : PM BoundaryVersion := do
  let p ← PM.get
  let bv ← boundaryName p
  PM.set "boundaryVersion" (.bver bv)
  PM.set "need_trend" (.bool (decide (bv ≠ .V1)))
  pure bv

/-- the detector names accepted by 226, compared after `.lower()` -/
def detectorNames : List String := ["spectral_residual", "hbos", "seasonal_series", "dynamic_threshold"]

/-- 208-231 -/
def parseDetector : PM (Option (List (String × PyVal))) := do
  let p ← PM.get
  match p "detector" with
  | some (.dict d) =>
    match Params.ofList d "parameters" with
    | none => PM.early "MissingDetectorParameters"
    | some (.dict _) =>
      match Params.ofList d "name" with
      | none => PM.early "MissingDetectorName"
      | some (.str s) => if detectorNames.contains s.toLower then pure (some d) else PM.early "InvalidDetector"
      | some _ => PM.throw .attributeError
    | some _ => PM.early "InvalidDetectorParameters"
  | _ => pure none

/-- 234-239: validation, then `params['indices']`, a KeyError if nothing was stored. -/
def parseIndices (E : Env) (hasTs hasValue : Bool) (rows : List (PyVal × PyVal)) (g : Granularity)
    (interval : Option Int) : PM (PyVal × Option String) := do
  let code ← seriesValidator E hasTs hasValue rows g interval
  let p ← PM.get
  match p "indices" with
  | none => PM.throw .keyError (some code)
  | some v => pure (v, code)

/-- A successful `parse_arg`: the columns and rows of the frame, the model parameters, and the value given to
`self.error_code`. -/
structure ParseResult where
  hasTs : Bool
  hasValue : Bool
  rows : List (PyVal × PyVal)
  mp : ModelParams
  code : Option String

/-- `parse_arg(data, params)` (89-239) for a dictionary `params`. -/
def parseArg (E : Env) : DataArg → PM ParseResult
  | .none => PM.earlyNoCode                                                     -- 93-95
  | .notFrame true => PM.earlyNoCode
  | .notFrame false => PM.throw .attributeError
  | .frame hasTs hasValue rows =>
    if rows.length = 0 then PM.earlyNoCode
    else do
      let g ← parseGranularity
      let interval ← parseInterval
      parsePeriod
      let alpha ← parseAlpha
      let ratio ← parseRatio
      parseSensitivity
      let threshold ← parseThreshold
      let _ ← parseDefaultFalse "needDetectorId"
      let fill ← parseFill
      let _ ← parseDefaultFalse "needFillUpConfirm"
      let spec ← parseDefaultFalse "needSpectrumPeriod"
      let bv ← parseBoundary
      let det ← parseDetector
      let idx ← parseIndices E hasTs hasValue rows g interval
      pure
        { hasTs := hasTs, hasValue := hasValue, rows := rows, code := idx.2
          mp := { granularity := g, interval := interval, alpha := alpha, ratio := ratio
                  threshold := threshold, fillMode := fill.1, fixed := fill.2, needSpectrum := spec
                  needTrend := decide (bv ≠ .V1), detector := det, indices := idx.1 } }

/-! ## AnomalyDetectionModel -/

/-- The configured model after `__init__` (`detect_model.py:98-122`). `majority` is `__majority_ratio`. -/
structure Model where
  values : List ℚ
  fill : FillProc
  mode : FillUpMode
  fixed : Option PyFloat
  gran : Granularity
  interval : Nat
  ratio : PyFloat
  alpha : PyFloat
  threshold : PyFloat
  majority : ℚ
  needTrend : Bool
  needSpectrum : Bool

/-- `AnomalyDetectionModel.__init__` (`detect_model.py:98-122`). Non-finite data (possible only when validation
was bypassed) leaves the model, as do `indices` that are not a list of integers. -/
def Model.init (E : Env) (vs : List PyFloat) (mp : ModelParams) : Except Stop Model :=
  match vs.mapM finite? with
  | none => .error .unmodelled
  | some values =>
    match mp.indices with
    | .list l =>
      match PyVal.asIntList? l with
      | none => .error .unmodelled
      | some idx => do
        let P ← lift (FillProc.init idx values)
        pure { values := values, fill := P, mode := mp.fillMode.getD .auto, fixed := mp.fixed
               gran := mp.granularity, interval := (mp.interval.getD 1).toNat
               ratio := mp.ratio.getD (.fin (25 / 100)), alpha := mp.alpha.getD (.fin (5 / 100))
               threshold := mp.threshold.getD (.fin (35 / 10))
               majority := (E.histMajority values).getD (-1)
               needTrend := mp.needTrend, needSpectrum := mp.needSpectrum }
    | _ => .error (.err .valueError)                                  -- fill_up.py:12-13

/-- Fill on demand, leaving the model if a `None` or a non-finite constant would enter the series. -/
def Model.filled (E : Env) (M : Model) (mode : FillUpMode) (period : Nat) :
    Except Stop (Option (List ℚ × List Bool)) :=
  if mode = .fixed ∧ M.fill.need = true ∧ (M.fixed.bind finite?) = none then .error .unmodelled
  else do
    match ← lift (fillUpOnDemand E.spline M.fill mode (M.fixed.bind finite?) period) with
    | none => pure none
    | some (l, tags) =>
      match l.mapM id with
      | some full => pure (some (full, tags))
      | none => .error .unmodelled

/-- `period_detection` on a series with `None` in it, of length `n`: the minimum of such an array is a TypeError (`helpers.py:250`), and a minimum is
the first thing that both detectors compute (`simple.py:44`, `spectrum.py:21`) after the test of the length (`spectrum.py:16-17`). -/
def noneError (n : Nat) (g : Granularity) (interval : Nat) (skipSimple : Bool) : PyErr :=
  if !skipSimple && (guessPeriod g interval).any fun p => decide (p * 2 < n) && decide (minPeriod ≤ p) then .typeError
  else if n < 12 then .valueError
  else .typeError

/-- `period_detection_with_filled_values` (`series_compete_processor.py:21-31`). -/
def Model.detectPeriod (E : Env) (M : Model) (skipSimple : Bool) : Except Stop (Nat × Nat) :=
  if M.mode = .fixed ∧ M.fill.need = true ∧ M.fixed = none then
    .error (.err (noneError M.fill.allCount M.gran M.interval skipSimple))
  else do
    let full ← if M.fill.need then
        M.filled E (if M.mode = .auto then .previous else M.mode) 1     -- 22-28
      else pure none
    lift (periodDetection E ((full.map (·.1)).getD M.values) M.gran M.interval skipSimple)

/-- `max_ratio` (`detect_model.py:129-130, 230`). NaN stays NaN. -/
def Model.maxRatio (M : Model) (last : Bool) : PyFloat :=
  if last && decide (6 / 10 < M.majority) then
    match M.ratio with
    | .fin r => .fin (max ((1 - M.majority) * r) (min (5 / 100) r))
    | f => f
  else M.ratio

/-- The detection step 263-291 on the (filled) series with a finite ratio. -/
def Model.run (E : Env) (M : Model) (series : List ℚ) (ratio : ℚ) (period : Nat) (last : Bool) :
    Except PyErr (List Row × ModelType) :=
  if 1 < period then tsDetection E series period ratio M.alpha M.needTrend last           -- 263-267
  else if shouldTriggerSr E M.gran M.interval series then do                              -- 270-279
    let (rows, model) ← srDetection E series M.threshold ratio M.needTrend last
    let rows ← mergeWithDelta E rows series ratio
      (fun s r => srDetection E s M.threshold r M.needTrend last)
    pure (rows, model)
  else do                                                                                 -- 280-291
    let trend ← trendDetection E series (some period)
    let (rows, model) ← dtDetection E series trend M.alpha ratio M.needTrend last
    let rows ← mergeWithDelta E rows series ratio
      (fun s r => dtDetection E s trend M.alpha r M.needTrend last)
    pure (rows, model)

/-- The exception of the detection step 263-291 with a NaN ratio: every model turns the ratio into a count with `int(nan)`
or `math.ceil(nan)`, a ValueError (`spectral_residual_model.py:15`, `dynamic_threshold.py:50`, `seasonal_series.py:102`);
the spectral residual model does so first, the others after the trend or the decomposition. -/
def Model.runNaN (E : Env) (M : Model) (series : List ℚ) (period : Nat) (last : Bool) : PyErr :=
  if 1 < period then
    if series.length = 0 then .zeroDivision
    else if series.length < period * 2 + 1 then .valueError
    else match tsDecompose E series period last with
      | .error e => e
      | .ok _ => .valueError
  else if shouldTriggerSr E M.gran M.interval series then .valueError
  else match trendDetection E series (some period) with
    | .error e => e
    | .ok _ => .valueError

/-- rows of the points that were not filled in (294-295) -/
def dropFilled (rows : List Row) (tags : List Bool) : List Row :=
  ((rows.zipIdx).filter fun x => !(tags.getD x.2 false)).map (·.1)

/-- the period that is used and, when it was detected, its source (`detect_model.py:234-242`) -/
def Model.usedPeriod (E : Env) (M : Model) (period : Option Nat) : Except Stop (Nat × Option Nat) :=
  match period with
  | some p => .ok (p, none)
  | none =>
    if 1 / 2 < M.fill.missingRatio then .ok (0, none)
    else (M.detectPeriod E false).map fun r => (r.1, some r.2)

/-- the density test and the filled series, if there is one (`detect_model.py:244-256`) -/
def Model.usedSeries (E : Env) (M : Model) (p : Nat) : Except Stop (Option (List ℚ × List Bool)) :=
  if 1 < p ∧ 1 / 2 < M.fill.missingRatio then .error (.err (.requestError "InvalidSeries"))
  else if 1 < p ∨ M.mode = .fixed ∨ M.mode = .use_last ∨ M.mode = .previous ∨ M.mode = .linear then
    M.filled E M.mode p
  else .ok none

/-- `__detect_with_model_selection` (229-297): rows, period and its source. -/
def Model.select (E : Env) (M : Model) (period : Option Nat) (last : Bool) :
    Except Stop (List Row × Nat × ModelType × Option Nat) := do
  let (p, source) ← M.usedPeriod E period                                                 -- 234-242
  let full ← M.usedSeries E p                                                             -- 244-256
  let series := (full.map (·.1)).getD M.values                                            -- 261
  match M.maxRatio last with
  | .fin ratio =>
    let (rows, model) ← lift (M.run E series ratio p last)
    let rows := match full with
      | some (_, tags) => dropFilled rows tags                                            -- 294-295
      | none => rows
    pure (rows, p, model, source)
  | _ => throw (.err (M.runNaN E series p last))

/-- `x > 1` for a Python value; `none` is TypeError -/
def gtOne : PyVal → Option Bool
  | v => v.asNumber?.map fun f => (PyFloat.fin 1).lt f

/-- `__detect_without_model_selection` (142-227). Every path raises: at the latest `print(..., count=...)` (170)
is a TypeError. -/
def Model.explicitError (M : Model) (det : List (String × PyVal)) (period : Option Nat) : PyErr :=
  let params : Params := match Params.ofList det "parameters" with
    | some (.dict d) => Params.ofList d
    | _ => fun _ => none
  if period.isNone && !params.has "period" then .requestError "InvalidDetector"            -- 143-147
  else
    let p : PyVal := match presentKey params "period" with                                -- 149-150
      | some v => v
      | none => match period with
        | some n => .int n
        | none => .none
    match gtOne p with
    | none => .typeError                                                                  -- 155
    | some big =>
      if big && decide (1 / 2 < M.fill.missingRatio) then .requestError "InvalidSeries"    -- 156-161
      else if M.fill.need && decide (M.mode = .auto) && big && p.asInt?.isNone then .valueError   -- fill_up.py:184-186
      else .typeError                                                                     -- 170

/-- `get_spectrum_period` (299-316), called without `last_value` (331): only its exceptions are observable. -/
def Model.spectrum (E : Env) (M : Model) (period : Nat) (source : Option Nat) (rows : List Row) :
    Except Stop Unit :=
  if !M.needSpectrum then pure ()
  else if period = 0 then pure ()
  else if source = some 1 then pure ()
  else if !(rows.any (·.anom)) then pure ()
  else do
    let _ ← M.detectPeriod E true
    pure ()

/-- 325-330: a value within EPS of its expected value is not an anomaly -/
def clearNear (r : Row) : Row :=
  if |r.value - r.expected| < EPS then { r with anom := false, neg := false, pos := false } else r

/-- `AnomalyDetectionModel.detect` (319-333). `det` is the `detector` argument. -/
def Model.detect (E : Env) (M : Model) (det : Option (List (String × PyVal))) (period : Option Nat)
    (last : Bool) : Except Stop (List Row × Nat × ModelType) := do
  let explicit : Option (List (String × PyVal)) := match det with                         -- 132-140
    | none => none
    | some d =>
      if (Params.ofList d).has "name" && (Params.ofList d).has "parameters" then
        match Params.ofList d "name" with
        | some (.str "hbos") => if M.majority ≤ 0 then none else some d
        | _ => some d
      else none
  match explicit with
  | some d => throw (.err (M.explicitError d period))
  | none =>
    let (rows, p, model, source) ← M.select E period last
    let rows := rows.map clearNear
    M.spectrum E p source rows
    pure (rows, p, model)

/-! ## predict -/

/-- One element of the returned list. -/
structure Item where
  timestamp : PyVal
  expected : ℚ
  upper : ℚ
  lower : ℚ
  neg : Bool
  pos : Bool
  anom : Bool
  period : Nat
  suggested : Option Nat

/-- `default_gran_window` (`util/enum.py:5-15`); every granularity has an entry. -/
def defaultGranWindow : Granularity → Nat
  | .daily => 28 | .minutely => 1440 | .hourly => 168 | .weekly => 12 | .monthly => 12
  | .yearly => 12 | .secondly => 1440 | .microsecond => 1000 | .none => 1440

/-- 293-299 -/
def suggestedWindow (period : Nat) (g : Granularity) : Nat :=
  if period ≠ 0 then 4 * period + 1 else defaultGranWindow g + 1

def mkItem (ts : PyVal) (o : Out) (period : Nat) (sw : Option Nat) : Item :=
  { timestamp := ts, expected := o.expected, upper := o.upper, lower := o.lower, neg := o.neg, pos := o.pos
    anom := o.anom, period := period, suggested := sw }

/-- the `timestamp` column (255-258) -/
def rowStamps (hasTs : Bool) (rows : List (PyVal × PyVal)) : List PyVal :=
  if hasTs then rows.map (·.1) else (List.range rows.length).map fun (i : Nat) => .int (i : Int)

/-- 255-315: from the result frame to the answer. `mode` is `self._detect_mode`. -/
def finish (mode : PyVal) (stamps : List PyVal) (rows : List Row) (period : Nat) (model : ModelType)
    (sens : Int) (bv : BoundaryVersion) (g : Granularity) : Except PyErr (List Item) :=
  if rows.length ≠ stamps.length then .error .valueError                                  -- 256
  else match mode with
    | .dtype .ENTIRE => do
      let outs ← getMargins rows sens model bv
      pure (List.zipWith (fun ts o => mkItem ts o period none) stamps outs)
    | _ => do
      let o ← getMarginsLast rows sens model bv
      match stamps.getLast? with
      | some ts => pure [mkItem ts o period (some (suggestedWindow period g))]
      | none => .error .indexError

/-- `params['sensitivity']` after `parse_arg` -/
def paramSens (p : Params) : Int := ((p "sensitivity").bind PyVal.asInt?).getD 99

/-- `params['boundaryVersion']` after `parse_arg` -/
def paramBoundary (p : Params) : BoundaryVersion :=
  match p "boundaryVersion" with
  | some (.bver b) => b
  | _ => .V1

def isLatest : PyVal → Bool
  | .dtype .LATEST => true
  | _ => false

/-- 250-315, once the arguments are parsed and the mode is known -/
def runModel (E : Env) (mode : PyVal) (hasTs hasValue : Bool) (rows : List (PyVal × PyVal))
    (mp : ModelParams) (p : Params) : Except Stop (List Item) := do
  let vs ← lift (cellValues E hasValue rows)                                              -- detect_model.py:100
  let M ← Model.init E vs mp
  let (rs, period, model) ← M.detect E mp.detector (paramPeriod p) (isLatest mode)         -- 252-253
  lift (finish mode (rowStamps hasTs rows) rs period model (paramSens p) (paramBoundary p) mp.granularity)

/-- Outcome oracle for the unmodelled cases: mode, data, model parameters, period, sensitivity, boundary version. Like
`runModel` it sees nothing else of the request (250-315). -/
abbrev Wild := PyVal → Bool → Bool → List (PyVal × PyVal) → ModelParams → Option Nat → Int → BoundaryVersion →
  Except PyErr (List Item)

/-- the oracle, asked about one call -/
def Wild.run (W : Wild) (mode : PyVal) (hasTs hasValue : Bool) (rows : List (PyVal × PyVal)) (mp : ModelParams)
    (p : Params) : Except PyErr (List Item) :=
  W mode hasTs hasValue rows mp (paramPeriod p) (paramSens p) (paramBoundary p)

/-- `self._detect_mode` during a call (244-245): kept if not `None`, else read from `params`; `none` is a
KeyError. -/
def currentMode (mode : PyVal) (p : Params) : Option PyVal :=
  if mode.isNone then p "detect_mode" else some mode

/-- The attributes of a `UnivariateAnomalyDetector` that its methods touch: `_detect_mode` and `error_code`
(`none`: not assigned yet). `_error_msg` keeps its initial `None`. -/
structure Detector where
  mode : PyVal
  errorCode : Option (Option String)

/-- assign `self.error_code` -/
def Detector.update (d : Detector) : CodeUpdate → Detector
  | none => d
  | some c => { d with errorCode := some c }

/-- `UnivariateAnomalyDetector(detect_mode)` (21-26) -/
def Detector.new (mode : PyVal) : Detector := ⟨mode, none⟩

/-- `EntireAnomalyDetector()` / `LatestAnomalyDetector()` (318-324). -/
def entireDetector : Detector := Detector.new (.dtype .ENTIRE)
def latestDetector : Detector := Detector.new (.dtype .LATEST)

/-- What a call yields: the value or exception, the detector afterwards and the caller's dict afterwards. -/
structure CallResult where
  outcome : Except PyErr (List Item)
  detector : Detector
  params : Params

/-- 244-315, after a successful `parse_arg`. -/
def afterParse (E : Env) (W : Wild) (d : Detector) (data : DataArg) (p : Params) (r : ParseResult) : CallResult :=
  match currentMode d.mode p with                                     -- 244-245
  | none => ⟨.error .keyError, d, p⟩
  | some m =>
    match runModel E m r.hasTs r.hasValue r.rows r.mp p with
    | .ok items => ⟨.ok items, { d with mode := m }, p⟩
    | .error (.err e) => ⟨.error e, { d with mode := m }, p⟩
    | .error .unmodelled => ⟨W.run m r.hasTs r.hasValue r.rows r.mp p, { d with mode := m }, p⟩

/-- `UnivariateAnomalyDetector.predict(context, data, params)` (241-315). Lines 247-248 never raise because
`_error_msg` is never assigned after the constructor. -/
def predict (E : Env) (W : Wild) (d : Detector) (data : DataArg) (params : Params) : CallResult :=
  match parseArg E data params with
  | (p, .err e c) => ⟨.error e, d.update c, p⟩
  | (p, .early c) => ⟨.error .typeError, d.update c, p⟩               -- `data, model_params = None`
  | (p, .ok r) => afterParse E W (d.update (some r.code)) data p r     -- 236, 244-315

/-- `predict(context, data, params=None)`: the membership test on `None` is a TypeError, after the data checks. -/
def predictNoParams : DataArg → Except PyErr (List Item)
  | .none | .notFrame true => .error .typeError
  | .notFrame false => .error .attributeError
  | .frame _ _ _ => .error .typeError

end Verif
