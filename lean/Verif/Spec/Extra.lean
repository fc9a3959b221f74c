import Verif.Py
import Verif.Spec.Kernel

/-!
# Specification: units of time, straight lines, flat stretches
-/

namespace Verif.Spec

/-- length of a unit in milliseconds; a month has 28 days and a year 12 such months, and the unit called microsecond is a millisecond -/
def unitMs : Granularity → Int
  | .none => 0
  | .microsecond => 1
  | .secondly => 1000
  | .minutely => 60 * 1000
  | .hourly => 60 * 60 * 1000
  | .daily => 24 * 60 * 60 * 1000
  | .weekly => 7 * 24 * 60 * 60 * 1000
  | .monthly => 28 * 24 * 60 * 60 * 1000
  | .yearly => 12 * 28 * 24 * 60 * 60 * 1000

/-- `g` is the longest unit of at most `d` milliseconds -/
def LongestUnit (d : Int) (g : Granularity) : Prop := unitMs g ≤ d ∧ ∀ h, unitMs h ≤ d → unitMs h ≤ unitMs g

/-- squared error of the line `a x + b` -/
def squaredError (a b : ℚ) : List (ℚ × ℚ) → ℚ
  | [] => 0
  | p :: t => (p.2 - (a * p.1 + b)) ^ 2 + squaredError a b t

/-- the variance of the (at most) `step` entries from position `i` on is below 1e-8 -/
def FlatFrom (l : List ℚ) (step i : Nat) : Prop := variance ((l.drop i).take step) < 1 / 10 ^ 8

/-- flagged points have exactly one direction: negative if the value is below the expected value, else positive -/
def Signed (anom : Bool) (value expected : ℚ) (s : Bool × Bool) : Prop :=
  (s.1 = true ↔ anom = true ∧ expected ≤ value) ∧ (s.2 = true ↔ anom = true ∧ value < expected)

/-- `r` is `l` with the entries outside `keep` replaced: on the straight line between the nearest kept entries, constant before the first and
after the last kept one -/
structure Bridged (keep : Nat → Prop) (l r : List ℚ) : Prop where
  length : r.length = l.length
  kept : ∀ i v, l[i]? = some v → keep i → r[i]? = some v
  between : ∀ i a b u v, a < i → i < b → l[a]? = some u → l[b]? = some v → keep a → keep b → (∀ j, a < j → j < b → ¬ keep j) →
    r[i]? = some (u + (v - u) * ((i - a : ℚ) / (b - a)))
  before : ∀ i b v, i < b → l[b]? = some v → keep b → (∀ j, j < b → ¬ keep j) → r[i]? = some v
  after : ∀ i a u, a < i → i < l.length → l[a]? = some u → keep a → (∀ j, a < j → j < l.length → ¬ keep j) → r[i]? = some u

end Verif.Spec
