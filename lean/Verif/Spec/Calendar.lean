import Verif.Uni.DateUtils

/-!
# Specification: calendar and time grid

Stated without the functions of the model; only the data type `Stamp` is shared.
-/

namespace Verif.Spec

/-- lengths of the months of a common year -/
def monthLengths : List Int := [31, 28, 31, 30, 31, 30, 31, 31, 30, 31, 30, 31]

/-- last day of a month, Gregorian calendar -/
def lastDay (y m : Int) : Int :=
  if m = 2 ∧ ((4 ∣ y ∧ ¬ 100 ∣ y) ∨ 400 ∣ y) then 29 else monthLengths.getD (m - 1).toNat 31

/-- a date that exists -/
def Valid (s : Stamp) : Prop := 1 ≤ s.month ∧ s.month ≤ 12 ∧ 1 ≤ s.day ∧ s.day ≤ lastDay s.year s.month

/-- months since year 0 -/
def monthNo (s : Stamp) : Int := s.year * 12 + s.month

/-- calendar order of the civil dates -/
def DateLE (a b : Stamp) : Prop := monthNo a < monthNo b ∨ (monthNo a = monthNo b ∧ a.day ≤ b.day)

/-- the civil fields follow the instants (all stamps read in one time zone) -/
def Coherent (a b : Stamp) : Prop := (a.ns ≤ b.ns → DateLE a b) ∧ (b.ns ≤ a.ns → DateLE b a)

/-- `a` is `b` moved by whole months, the day clamped to the length of the month, or the other way round,
or both are month ends -/
def DayAligned (a b : Stamp) : Prop :=
  a.day = min b.day (lastDay a.year a.month) ∨ b.day = min a.day (lastDay b.year b.month) ∨
    (a.day = lastDay a.year a.month ∧ b.day = lastDay b.year b.month)

/-- seconds in one step of the granularities of fixed length -/
def stepSeconds : Granularity → Option Int
  | .weekly => some 604800
  | .daily => some 86400
  | .hourly => some 3600
  | .minutely => some 60
  | .secondly => some 1
  | _ => none

/-- `t` lies `k` steps of `ci` granularity units after `s` -/
def OnGrid (g : Granularity) (ci : Int) (s t : Stamp) (k : Int) : Prop :=
  match g with
  | .monthly => monthNo t - monthNo s = k * ci ∧ DayAligned t s
  | .yearly => monthNo t - monthNo s = k * ci * 12 ∧ DayAligned t s
  | g => ∃ sec, stepSeconds g = some sec ∧ t.ns - s.ns = k * (sec * ci * 1000000000)

/-- the same up to 20 microseconds for the granularities of fixed length -/
def NearGrid (g : Granularity) (ci : Int) (s t : Stamp) (k : Int) : Prop :=
  match stepSeconds g with
  | some sec => |t.ns - s.ns - k * (sec * ci * 1000000000)| ≤ 20000
  | none => OnGrid g ci s t k

/-- nanoseconds that a 64 bit integer can hold -/
def InRange (t : Stamp) : Prop := |t.ns| ≤ 2 ^ 63

/-- a whole second between the years 1824 and 2116 -/
def WholeSecond (t : Stamp) : Prop := |t.ns| < 2 ^ 62 ∧ 1000000000 ∣ t.ns

end Verif.Spec
