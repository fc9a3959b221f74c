import Verif.Py
import Verif.Uni.Rounding

/-!
# Calendar differences and timestamp positions

Model of `univariate/util/date_utils.py:83-129` and of the timestamp half of
`univariate/util/helpers.py:137-246`.
-/

namespace Verif

/-- A `pandas.Timestamp`: an instant in nanoseconds since the epoch together with the civil fields the
code reads (`.year`, `.month`, `.day`). The fields are kept separate from the instant, so any time zone
is covered; the relation between the two is the hypothesis `Stamp.Coherent` of the theorems that use it. -/
structure Stamp where
  ns : Int
  year : Int
  month : Int
  day : Int
  deriving DecidableEq, Repr

/-- Gregorian leap year (`calendar.isleap`). -/
def isLeap (y : Int) : Bool := decide (y % 4 = 0) && (decide (y % 100 ≠ 0) || decide (y % 400 = 0))

/-- `get_days_in_month` = `calendar.monthrange(year, month)[1]` (`date_utils.py:93-94`). -/
def daysInMonth (y m : Int) : Int :=
  if m = 2 then (if isLeap y then 29 else 28)
  else if m = 4 ∨ m = 6 ∨ m = 9 ∨ m = 11 then 30
  else 31

/-- `DateDifference` (`date_utils.py:83-87`). -/
structure DateDifference where
  years : Int
  months : Int
  days : Int
  deriving DecidableEq, Repr

/-- `get_date_difference(a, b)` (`date_utils.py:97-129`); `a < b` compares instants. -/
def getDateDifference (a b : Stamp) : DateDifference :=
  let swap := decide (a.ns < b.ns)                          -- 98-103
  let factor : Int := if swap then -1 else 1
  let (a, b) := if swap then (b, a) else (a, b)
  let aDim := daysInMonth a.year a.month                    -- 105-106
  let bDim := daysInMonth b.year b.month
  let (diffDay, diffMonth) : Int × Int :=
    if a.year = b.year ∧ a.month = b.month then             -- 112-113
      (a.day - b.day, 0)
    else if a.day = b.day ∨ (a.day = aDim ∧ b.day = bDim)   -- 114-117
        ∨ (aDim ≠ bDim ∧ ((a.day = aDim ∧ b.day > a.day) ∨ (b.day = bDim ∧ a.day > b.day))) then
      (0, a.month - b.month)
    else if a.day > b.day then                              -- 119-121
      (a.day - b.day, a.month - b.month)
    else                                                    -- 122-124
      (bDim - b.day + a.day, a.month - b.month - 1)
  let diffYear := a.year - b.year                           -- 125
  let (diffYear, diffMonth) :=                              -- 126-128
    if diffMonth < 0 then (diffYear - 1, diffMonth + 12) else (diffYear, diffMonth)
  ⟨factor * diffYear, factor * diffMonth, factor * diffDay⟩ -- 129

/-! ### Milliseconds -/

/-- `get_microsecond_by_granularity(Granularity.microsecond, k)` =
`int(0.001 * k * 1000)` evaluated in IEEE doubles (`helpers.py:154-155, 162-163`, `fields.py:114`). -/
def msStep (k : Int) : Int :=
  (roundDouble (roundDouble (roundDouble (1/1000) * roundSigned k) * 1000)).floor

/-- `Timestamp.timestamp()` of pandas, `round(value / 1e9, 6)` for a stamp of nanosecond resolution: the nanoseconds as a
double, divided in doubles, rounded to six decimals (half to even, of the exact value of the double) and again to a
double. -/
def timestampFloat (ns : Int) : ℚ :=
  let v := roundSigned (roundSigned ns / 1000000000)
  let us : Int := if v < 0 then -(roundHalfEven (-v * 1000000) : Int) else roundHalfEven (v * 1000000)
  roundSigned (us / 1000000)

/-- `int(t.timestamp() * 1000)` in IEEE doubles (`helpers.py:222-223`). -/
def timestampMs (ns : Int) : Int :=
  let x := roundSigned (timestampFloat ns * 1000)
  if x < 0 then -(-x).floor else x.floor

/-! ### Granularity arithmetic -/

/-- `get_second_by_granularity` for the granularities of fixed length (`helpers.py:137-149`, `fields.py:107-113`). -/
def secondsOf : Granularity → Option Int
  | .secondly => some 1
  | .minutely => some 60
  | .hourly => some (60 * 60)
  | .daily => some (24 * 60 * 60)
  | .weekly => some (7 * 24 * 60 * 60)
  | _ => none

/-- Result of `get_indices_from_timestamps`: `(indices, None)` or `(None, first_invalid_index)`. -/
inductive IdxResult where
  | ok (indices : List Int)
  | invalid (i : Nat)
  deriving DecidableEq, Repr

/-- The final loop `helpers.py:240-246`: every index must be a whole number (`is_integer`). -/
def intLoop : List ℚ → Nat → IdxResult
  | [], _ => .ok []
  | x :: t, i =>
    if x.den = 1 then
      match intLoop t (i + 1) with
      | .ok l => .ok (x.num :: l)
      | .invalid j => .invalid j
    else .invalid i

/-- First position whose calendar difference is rejected (`helpers.py:228-230, 235-237`). -/
def firstBad (bad : DateDifference → Bool) : List DateDifference → Nat → Option Nat
  | [], _ => none
  | d :: t, i => if bad d then some i else firstBad bad t (i + 1)

/-- `get_indices_from_timestamps(granularity, custom_interval, timestamps)` (`helpers.py:194-246`).
Quotients of two Python ints are taken exactly: rounding to a double does not change whether they are whole as long as
the dividend is below 2^53 (`roundSigned_quot`). Simplifications: a divisor above 1.8e308 (OverflowError) is not treated;
for granularity `none` the code would divide by zero, `series_validator` never calls it then (error value below). -/
def getIndices (g : Granularity) (customInterval : Option Int) (ts : List Stamp) :
    Except PyErr IdxResult :=
  let ci : Int := max (customInterval.getD 1) 1                    -- 208
  match ts with
  | [] => .ok (.ok [])                                             -- 209-210
  | s :: _ =>
    match g with
    | .microsecond =>                                              -- 220-224
      let step := msStep ci
      if step = 0 then .error .zeroDivision
      else .ok (intLoop (ts.map fun t => ((timestampMs t.ns - timestampMs s.ns : Int) : ℚ) / step) 0)
    | .monthly =>                                                  -- 226-231
      let deltas := ts.map fun t => getDateDifference t s
      match firstBad (fun d => d.days != 0) deltas 0 with
      | some i => .ok (.invalid i)
      | none => .ok (intLoop (deltas.map fun d => ((d.months + d.years * 12 : Int) : ℚ) / ci) 0)
    | .yearly =>                                                   -- 233-238
      let deltas := ts.map fun t => getDateDifference t s
      match firstBad (fun d => d.days != 0 || d.months != 0) deltas 0 with
      | some i => .ok (.invalid i)
      | none => .ok (intLoop (deltas.map fun d => ((d.years : Int) : ℚ) / ci) 0)
    | g =>                                                         -- 214-218
      match secondsOf g with
      | none => .error .zeroDivision
      | some sec =>
        let step : Int := sec * ci
        .ok (intLoop (ts.map fun t =>
          roundSigned (roundSigned (timestampFloat t.ns - timestampFloat s.ns) / roundSigned step)) 0)

end Verif
