import Verif.Uni.Margins
import Verif.Uni.Double

/-!
# Margins with rounded arithmetic

`univariate/util/refine.py` and `univariate/util/boundary_utils.py` once more, every arithmetic operation and every decimal literal
rounded. `Margins.lean` is the case without rounding (`C108_exact`).
-/

namespace Verif

/-- An arithmetic: `fl` rounds the result of one operation, `mean` is `np.mean` (its order of summation is left open). -/
structure Arith where
  fl : ℚ → ℚ
  mean : List ℚ → ℚ

/-- What rounding to nearest gives. -/
structure Arith.WF (A : Arith) : Prop where
  mono : ∀ {x y}, x ≤ y → A.fl x ≤ A.fl y
  neg : ∀ x, A.fl (-x) = -A.fl x
  idem : ∀ x, A.fl (A.fl x) = A.fl x
  int : ∀ z : Int, |z| ≤ 1000 → A.fl z = z
  zero : ∀ x, A.fl x = 0 → x = 0

/-- arithmetic without rounding -/
def Arith.exact : Arith := { fl := id, mean := npMean }

/-- IEEE double arithmetic, for any way to add up a list -/
def Arith.double (mean : List ℚ → ℚ) : Arith := { fl := roundSigned, mean := mean }

namespace Arith

variable (A : Arith)

/-- `detect_model.py:325-330`: a value within EPS of its expected value is not an anomaly -/
def clearNear (r : Row) : Row :=
  if |A.fl (r.value - r.expected)| < A.fl EPS then { r with anom := false, neg := false, pos := false } else r

/-- `calculate_severity_v1` (`boundary_utils.py:125-133`). -/
def severityV1 (value expected : ℚ) (anom : Bool) : ℚ :=
  if !anom then 0
  else
    let base := |expected|
    let base := if base ≤ A.fl EPS then A.fl MIN_UNIT else base
    min (A.fl (|A.fl (value - expected)| / base)) 1

/-- The per-point part of `refine_margins` (`refine.py:19-46`), given the point and its clipped bounds. -/
def refinePoint (sens : Int) (r : Row) (ub lb : ℚ) : Out :=
  let um := A.fl (ub - r.expected)                                      -- 19-20
  let lm := A.fl (r.expected - lb)
  let anomalyRefine := r.anom && (decide (r.value ≤ ub) && decide (lb ≤ r.value))   -- 22-24
  let upperRefine := decide (ub < r.value) && !r.anom                   -- 26-27
  let um1 := if upperRefine then A.fl (A.fl (r.value - r.expected) * A.fl (101 / 100)) else um   -- 29-30
  let lm1 := if upperRefine then um1 else lm
  let lowerRefine := decide (r.value < lb) && !r.anom                   -- 32-33
  let lm2 := if lowerRefine then A.fl (A.fl (r.expected - r.value) * A.fl (101 / 100)) else lm1  -- 35-36
  let um2 := if lowerRefine then lm2 else um1
  if sens = 100 then                                                    -- 38-40
    { expected := r.expected
      upper := if anomalyRefine then 0 else um2
      lower := if anomalyRefine then 0 else lm2
      neg := r.neg, pos := r.pos, anom := r.anom
      severity := A.severityV1 r.value r.expected r.anom, unit := none, score := none }
  else                                                                  -- 41-44
    let a := r.anom && !anomalyRefine
    { expected := r.expected, upper := um2, lower := lm2
      neg := r.neg && !anomalyRefine, pos := r.pos && !anomalyRefine, anom := a
      severity := A.severityV1 r.value r.expected a, unit := none, score := none }

/-- `refine_margins` (`refine.py:10-48`); `margins` are the (equal) upper and lower margins. -/
def refineMargins (sens : Int) (rows : List Row) (margins : List ℚ) : List Out :=
  let es := rows.map (·.expected)
  let vs := rows.map (·.value)
  let ub := List.zipWith (fun e m => A.fl (e + m)) es margins           -- 12-13
  let lb := List.zipWith (fun e m => A.fl (e - m)) es margins
  let hi := max (npMax vs) (npMax es)
  let lo := min (npMin vs) (npMin es)
  let ubc := ub.map fun x => npClip x (npMin ub) hi                     -- 16-17
  let lbc := lb.map fun x => npClip x lo (npMax lb)
  List.zipWith (fun r b => A.refinePoint sens r b.1 b.2) rows (ubc.zip lbc)

/-- margins of `get_spectral_residual_margins` (`refine.py:64-79`) -/
def srMargins (sens : Int) (rows : List Row) : List ℚ :=
  let normal := (rows.filter fun r => decide (r.score.getD 0 ≤ A.fl EPS)).map (·.value)
  let base : ℚ := if 0 < normal.length then A.fl (A.fl (npMax normal - npMin normal) * A.fl (1 / 100)) else 0
  let bar : ℚ := A.fl (1 - A.fl ((sens : ℚ) / 100))
  rows.map fun r =>
    if r.score.getD 0 ≤ A.fl EPS then base
    else A.fl (A.fl (|A.fl (r.value - r.expected)| / r.score.getD 0) * bar)

/-- margins of `get_anomaly_detector_margins` (`refine.py:87-88`) -/
def adMargins (sens : Int) (rows : List Row) : List ℚ :=
  rows.map fun r => A.fl (A.fl (|r.expected| * (100 - sens)) / 100)

/-- `get_margins_v1` (`refine.py:94-107`). -/
def marginsV1 (rows : List Row) (sens : Int) (model : ModelType) : List Out :=
  A.refineMargins sens rows
    (if model = .SpectralResidual then A.srMargins sens rows else A.adMargins sens rows)

/-- `calculate_boundary_units` (`boundary_utils.py:62-70`). -/
def boundaryUnits (trend : List ℚ) (anom : List Bool) : List ℚ :=
  let normal := ((trend.zip anom).filter fun x => !x.2).map (·.1)
  if normal.all (fun u => decide (|u| < A.fl EPS)) then trend.map fun _ => A.fl MIN_UNIT
  else
    let unit := A.mean (normal.map fun u => |u|)
    let units := trend.map fun t => A.fl (A.fl (|t| * (1 / 2)) + A.fl (unit * (1 / 2)))
    units.map fun u => npClip u (A.fl MIN_UNIT) (max (A.fl MIN_UNIT) (npMax units))

/-- entry `k` of `factors` as a float -/
def factor (k : Nat) : ℚ := A.fl (factors.getD k 0)

/-- `calculate_margin` (`boundary_utils.py:73-107`) for an integer sensitivity. -/
def calculateMargin (unit : ℚ) (sens : Int) (value expected : ℚ) (anom : Bool) : Except PyErr (ℚ × ℚ) :=
  if sens < 0 ∨ 100 < sens then .error .exception                       -- 101-102
  else if unit ≤ 0 then .error .exception                               -- 104-105
  else
    let delta := A.fl (unit * A.factor sens.toNat)                      -- 76
    if !anom then                                                       -- 77-83
      let d := A.fl (|A.fl (expected - value)| + A.fl (delta * (1 / 2)))
      if expected < value then .ok (d, A.fl (d / 3)) else .ok (A.fl (d / 3), d)
    else                                                                -- 84-89
      let d := if A.fl (delta * A.fl ANOMALY_IGNORE_RATIO) < |A.fl (value - expected)| ∧
            |A.fl (value - expected)| < delta ∧ sens = 99
        then A.fl (|A.fl (expected - value)| * (1 / 2)) else delta
      .ok (d, d)

/-- `calculate_anomaly_score` (`boundary_utils.py:110-122`). -/
def anomalyScore (value expected unit : ℚ) : ℚ :=
  let dist := A.fl (|A.fl (expected - value)| / unit)
  let margins := (factors.map A.fl).reverse
  let lb := bisectLeft margins dist
  if lb = 0 then 0
  else if 100 ≤ lb then 100
  else
    let a := margins.getD (lb - 1) 0
    let b := margins.getD lb 0
    A.fl (((lb : ℚ) - 1) + A.fl (A.fl (dist - a) / A.fl (b - a)))

/-- `calculate_severity_v2` (`boundary_utils.py:136-140`). -/
def severityV2 (score : ℚ) (anom : Bool) : ℚ := if !anom then 0 else A.fl (score / 100)

/-- One point of `get_margins_v2` for a whole series (`refine.py:130-143`). -/
def pointV2 (sens : Int) (r : Row) (unit : ℚ) : Except PyErr Out := do
  let score := A.anomalyScore r.value r.expected unit
  let (um, lm) ← A.calculateMargin unit sens r.value r.expected r.anom
  let pos := r.anom && decide (A.fl (r.expected + um) < r.value)
  let neg := r.anom && decide (r.value < A.fl (r.expected - lm))
  let a := neg || pos
  pure { expected := r.expected, upper := um, lower := lm, neg := neg, pos := pos, anom := a
         severity := A.severityV2 score a, unit := some unit, score := some score }

/-- One point of `get_margins_v2(..., last=True)` (`refine.py:117-128`). -/
def pointV2Last (sens : Int) (r : Row) (unit : ℚ) : Except PyErr Out := do
  let score := A.anomalyScore r.value r.expected unit
  let severity := A.severityV2 score r.anom
  let (um, lm) ← A.calculateMargin unit sens r.value r.expected r.anom
  let pos := decide (A.fl (r.expected + um) < r.value) && r.anom
  let neg := decide (r.value < A.fl (r.expected - lm)) && r.anom
  pure { expected := r.expected, upper := um, lower := lm, neg := neg, pos := pos, anom := pos || neg
         severity := severity, unit := some unit, score := some score }

/-- boundary units of the result frame (`refine.py:115`) -/
def rowUnits (rows : List Row) : List ℚ :=
  A.boundaryUnits (rows.map fun r => r.trend.getD 0) (rows.map (·.anom))

/-- `get_margins(..., last=False)` (`refine.py:110-154`). -/
def getMargins (rows : List Row) (sens : Int) (model : ModelType) (bv : BoundaryVersion) :
    Except PyErr (List Out) :=
  if bv = .V1 then .ok (A.marginsV1 rows sens model)
  else (rows.zip (A.rowUnits rows)).mapM fun x => A.pointV2 sens x.1 x.2

/-- `get_margins(..., last=True)`; an empty frame would be an IndexError. -/
def getMarginsLast (rows : List Row) (sens : Int) (model : ModelType) (bv : BoundaryVersion) :
    Except PyErr Out :=
  if bv = .V1 then
    match (A.marginsV1 rows sens model).getLast? with
    | some o => .ok o
    | none => .error .indexError
  else
    match (rows.zip (A.rowUnits rows)).getLast? with
    | some x => A.pointV2Last sens x.1 x.2
    | none => .error .indexError

end Arith

end Verif
