import Verif.Uni.Models

/-!
# Margins, scores and severities

Model of `univariate/util/refine.py` and `univariate/util/boundary_utils.py`.
-/

namespace Verif

/-- `MIN_UNIT`, `ANOMALY_IGNORE_RATIO` (`boundary_utils.py:9-10`). -/
def MIN_UNIT : ℚ := 3 / 10
def ANOMALY_IGNORE_RATIO : ℚ := 1 / 10000

/-- What `get_margins` returns for one point: expected value, margins, flags, severity, and (V2) the boundary
unit and anomaly score. -/
structure Out where
  expected : ℚ
  upper : ℚ
  lower : ℚ
  neg : Bool
  pos : Bool
  anom : Bool
  severity : ℚ
  unit : Option ℚ
  score : Option ℚ
  deriving DecidableEq

/-! ## Version 1 -/

/-- `calculate_severity_v1` (`boundary_utils.py:125-133`). -/
def severityV1 (value expected : ℚ) (anom : Bool) : ℚ :=
  if !anom then 0
  else
    let base := |expected|
    let base := if base ≤ EPS then MIN_UNIT else base
    min (|value - expected| / base) 1

/-- The per-point part of `refine_margins` (`refine.py:19-46`), given the point and its clipped bounds. -/
def refinePoint (sens : Int) (r : Row) (ub lb : ℚ) : Out :=
  let um := ub - r.expected                                             -- 19-20
  let lm := r.expected - lb
  let anomalyRefine := r.anom && (decide (r.value ≤ ub) && decide (lb ≤ r.value))   -- 22-24
  let upperRefine := decide (ub < r.value) && !r.anom                   -- 26-27
  let um1 := if upperRefine then (r.value - r.expected) * (101 / 100) else um   -- 29-30
  let lm1 := if upperRefine then um1 else lm
  let lowerRefine := decide (r.value < lb) && !r.anom                   -- 32-33
  let lm2 := if lowerRefine then (r.expected - r.value) * (101 / 100) else lm1  -- 35-36
  let um2 := if lowerRefine then lm2 else um1
  if sens = 100 then                                                    -- 38-40
    { expected := r.expected
      upper := if anomalyRefine then 0 else um2
      lower := if anomalyRefine then 0 else lm2
      neg := r.neg, pos := r.pos, anom := r.anom
      severity := severityV1 r.value r.expected r.anom, unit := none, score := none }
  else                                                                  -- 41-44
    let a := r.anom && !anomalyRefine
    { expected := r.expected, upper := um2, lower := lm2
      neg := r.neg && !anomalyRefine, pos := r.pos && !anomalyRefine, anom := a
      severity := severityV1 r.value r.expected a, unit := none, score := none }

/-- `refine_margins` (`refine.py:10-48`); `margins` are the (equal) upper and lower margins. -/
def refineMargins (sens : Int) (rows : List Row) (margins : List ℚ) : List Out :=
  let es := rows.map (·.expected)
  let vs := rows.map (·.value)
  let ub := List.zipWith (· + ·) es margins                             -- 12-13
  let lb := List.zipWith (· - ·) es margins
  let hi := max (npMax vs) (npMax es)
  let lo := min (npMin vs) (npMin es)
  let ubc := ub.map fun x => npClip x (npMin ub) hi                     -- 16-17
  let lbc := lb.map fun x => npClip x lo (npMax lb)
  List.zipWith (fun r b => refinePoint sens r b.1 b.2) rows (ubc.zip lbc)

/-- margins of `get_spectral_residual_margins` (`refine.py:64-79`) -/
def srMargins (sens : Int) (rows : List Row) : List ℚ :=
  let normal := (rows.filter fun r => decide (r.score.getD 0 ≤ EPS)).map (·.value)
  let base : ℚ := if 0 < normal.length then (npMax normal - npMin normal) * (1 / 100) else 0
  let bar : ℚ := 1 - (sens : ℚ) / 100
  rows.map fun r =>
    if r.score.getD 0 ≤ EPS then base
    else |r.value - r.expected| / r.score.getD 0 * bar

/-- margins of `get_anomaly_detector_margins` (`refine.py:87-88`) -/
def adMargins (sens : Int) (rows : List Row) : List ℚ :=
  rows.map fun r => |r.expected| * (100 - sens) / 100

/-- `get_margins_v1` (`refine.py:94-107`). -/
def marginsV1 (rows : List Row) (sens : Int) (model : ModelType) : List Out :=
  refineMargins sens rows
    (if model = .SpectralResidual then srMargins sens rows else adMargins sens rows)

/-! ## Version 2 -/

/-- `factors` (`boundary_utils.py:46-59`), the decimal literals as written. -/
def factors : List ℚ :=
  [532, 2464/5, 9104000000000001/20000000000000, 8384000000000001/20000000000000, 1924/5, 352, 1604/5,
   1456/5, 5264000000000001/20000000000000, 1184/5, 212, 944/5, 8360000000000001/50000000000000, 736/5,
   644/5, 112, 484/5, 416/5, 356/5, 304/5, 52, 224/5, 196/5, 176/5, 164/5, 30, 115/4, 55/2, 105/4, 25,
   95/4, 45/2, 85/4, 20, 75/4, 35/2, 65/4, 15, 55/4, 25/2, 45/4, 10, 35/4, 15/2, 25/4, 5,
   2299999999999999/500000000000000, 4199999999999999/1000000000000000, 3799999999999997/1000000000000000,
   16999999999999993/5000000000000000, 3, 1299999999999999/500000000000000,
   21999999999999993/10000000000000000, 4499999999999993/2500000000000000,
   6999999999999993/5000000000000000, 1, 24/25, 9199999999999999/10000000000000000,
   8799999999999999/10000000000000000, 8399999999999999/10000000000000000,
   3999999999999999/5000000000000000, 3799999999999999/5000000000000000, 3599999999999999/5000000000000000,
   6799999999999997/10000000000000000, 6399999999999997/10000000000000000,
   6000000000000001/10000000000000000, 5700000000000003/10000000000000000, 27/50,
   2550000000000001/5000000000000000, 1200000000000001/2500000000000000, 2250000000000001/5000000000000000,
   1050000000000001/2500000000000000, 3900000000000001/10000000000000000,
   3600000000000003/10000000000000000, 33000000000000007/100000000000000000,
   1499999999999999/5000000000000000, 2849999999999999/10000000000000000,
   1349999999999999/5000000000000000, 2549999999999999/10000000000000000,
   23999999999999977/100000000000000000, 22499999999999987/100000000000000000,
   10499999999999987/50000000000000000, 1218749999999999/6250000000000000,
   8999999999999997/50000000000000000, 824999999999999/5000000000000000,
   1499999999999999/10000000000000000, 6909090909090909/50000000000000000,
   6318181818181823/50000000000000000, 229090909090909/2000000000000000,
   5136363636363639/50000000000000000, 9090909090909083/100000000000000000,
   790909090909091/10000000000000000, 6727272727272737/100000000000000000,
   8727272727272739/200000000000000000, 1200000000000001/100000000000000000, 1/125,
   12150000000000001/2000000000000000000, 83/20000, 4449999999999999/2000000000000000000,
   2999999999999999/10000000000000000000, 0]

/-- `calculate_boundary_units` (`boundary_utils.py:62-70`). -/
def boundaryUnits (trend : List ℚ) (anom : List Bool) : List ℚ :=
  let normal := ((trend.zip anom).filter fun x => !x.2).map (·.1)
  if normal.all (fun u => decide (|u| < EPS)) then trend.map fun _ => MIN_UNIT
  else
    let unit := npMean (normal.map fun u => |u|)
    let units := trend.map fun t => |t| * (1 / 2) + unit * (1 / 2)
    units.map fun u => npClip u MIN_UNIT (max MIN_UNIT (npMax units))

/-- `calculate_margin` (`boundary_utils.py:73-107`) for an integer sensitivity (`parse_arg` admits no other):
`lb == sensitivity`, so no interpolation happens. `factors[k]` with `k` in range by the check 101-102. -/
def calculateMargin (unit : ℚ) (sens : Int) (value expected : ℚ) (anom : Bool) : Except PyErr (ℚ × ℚ) :=
  if sens < 0 ∨ 100 < sens then .error .exception                       -- 101-102
  else if unit ≤ 0 then .error .exception                               -- 104-105
  else
    let delta := unit * factors.getD sens.toNat 0                       -- 76
    if !anom then                                                       -- 77-83
      let d := |expected - value| + delta * (1 / 2)
      if expected < value then .ok (d, d / 3) else .ok (d / 3, d)
    else                                                                -- 84-89
      let d := if delta * ANOMALY_IGNORE_RATIO < |value - expected| ∧ |value - expected| < delta ∧ sens = 99
        then |expected - value| * (1 / 2) else delta
      .ok (d, d)

/-- `bisect.bisect_left(l, x)` on a sorted list: the number of entries below `x` -/
def bisectLeft (l : List ℚ) (x : ℚ) : Nat := (l.takeWhile fun y => decide (y < x)).length

/-- `calculate_anomaly_score` (`boundary_utils.py:110-122`). -/
def anomalyScore (value expected unit : ℚ) : ℚ :=
  let dist := |expected - value| / unit
  let margins := factors.reverse
  let lb := bisectLeft margins dist
  if lb = 0 then 0
  else if 100 ≤ lb then 100
  else
    let a := margins.getD (lb - 1) 0
    let b := margins.getD lb 0
    (lb : ℚ) - 1 + (dist - a) / (b - a)

/-- `calculate_severity_v2` (`boundary_utils.py:136-140`). -/
def severityV2 (score : ℚ) (anom : Bool) : ℚ := if !anom then 0 else score / 100

/-- One point of `get_margins_v2` for a whole series (`refine.py:130-143`). -/
def pointV2 (sens : Int) (r : Row) (unit : ℚ) : Except PyErr Out := do
  let score := anomalyScore r.value r.expected unit
  let (um, lm) ← calculateMargin unit sens r.value r.expected r.anom
  let pos := r.anom && decide (r.expected + um < r.value)
  let neg := r.anom && decide (r.value < r.expected - lm)
  let a := neg || pos
  pure { expected := r.expected, upper := um, lower := lm, neg := neg, pos := pos, anom := a
         severity := severityV2 score a, unit := some unit, score := some score }

/-- One point of `get_margins_v2(..., last=True)` (`refine.py:117-128`): severity uses the flag before the
margins are applied. -/
def pointV2Last (sens : Int) (r : Row) (unit : ℚ) : Except PyErr Out := do
  let score := anomalyScore r.value r.expected unit
  let severity := severityV2 score r.anom
  let (um, lm) ← calculateMargin unit sens r.value r.expected r.anom
  let pos := decide (r.expected + um < r.value) && r.anom
  let neg := decide (r.value < r.expected - lm) && r.anom
  pure { expected := r.expected, upper := um, lower := lm, neg := neg, pos := pos, anom := pos || neg
         severity := severity, unit := some unit, score := some score }

/-- boundary units of the result frame (`refine.py:115`) -/
def rowUnits (rows : List Row) : List ℚ :=
  boundaryUnits (rows.map fun r => r.trend.getD 0) (rows.map (·.anom))

/-- `get_margins(..., last=False)` (`refine.py:110-154`). -/
def getMargins (rows : List Row) (sens : Int) (model : ModelType) (bv : BoundaryVersion) :
    Except PyErr (List Out) :=
  if bv = .V1 then .ok (marginsV1 rows sens model)
  else (rows.zip (rowUnits rows)).mapM fun x => pointV2 sens x.1 x.2

/-- `get_margins(..., last=True)`; an empty frame would be an IndexError. -/
def getMarginsLast (rows : List Row) (sens : Int) (model : ModelType) (bv : BoundaryVersion) :
    Except PyErr Out :=
  if bv = .V1 then
    match (marginsV1 rows sens model).getLast? with
    | some o => .ok o
    | none => .error .indexError
  else
    match (rows.zip (rowUnits rows)).getLast? with
    | some x => pointV2Last sens x.1 x.2
    | none => .error .indexError

end Verif
