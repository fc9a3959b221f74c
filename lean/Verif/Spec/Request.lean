import Verif.Py

/-!
# Specification: admissible requests

The documented domain of every request parameter, stated on Python values only.
-/

namespace Verif.Spec

/-- a Python `int` (or `bool`, a subclass) with its value -/
inductive IsInt : PyVal → Int → Prop
  | int (i : Int) : IsInt (.int i) i
  | true : IsInt (.bool true) 1
  | false : IsInt (.bool false) 0

/-- a Python `int` or `float` -/
inductive IsNumber : PyVal → PyFloat → Prop
  | int {v i} (h : IsInt v i) : IsNumber v (.fin i)
  | float (f : PyFloat) : IsNumber (.float f) f

/-- the finite number a data cell denotes; `parse` reads strings -/
inductive Reads (parse : String → Option PyFloat) : PyVal → ℚ → Prop
  | int {v i} (h : IsInt v i) : Reads parse v i
  | float (q : ℚ) : Reads parse (.float (.fin q)) q
  | str {s q} (h : parse s = some (.fin q)) : Reads parse (.str s) q

/-- the parameter is not given -/
def Absent (p : Params) (k : String) : Prop := p k = none

/-- the parameter is not given or `None` -/
def AbsentOrNone (p : Params) (k : String) : Prop := p k = none ∨ p k = some .none

def granularityNames : List String :=
  ["none", "yearly", "monthly", "weekly", "daily", "hourly", "minutely", "secondly", "microsecond"]

def fillNames : List String := ["last", "no", "auto", "previous", "linear", "zero", "fixed", "notFill"]

/-- the documented domain of the request parameters -/
structure Admissible (p : Params) : Prop where
  granularity : Absent p "granularity" ∨ ∃ s ∈ granularityNames, p "granularity" = some (.str s)
  customInterval : Absent p "customInterval" ∨ ∃ v i, p "customInterval" = some v ∧ IsInt v i ∧ 1 ≤ i
  period : Absent p "period" ∨ ∃ v i, p "period" = some v ∧ IsInt v i ∧ 0 ≤ i
  /-- a number; a finite one is positive, `-inf` is excluded -/
  alpha : Absent p "alpha" ∨ ∃ v f, p "alpha" = some v ∧ IsNumber v f ∧ f ≠ .ninf ∧ ∀ q, f = .fin q → 0 < q
  /-- a float; a finite one lies in (0, 0.49], infinities are excluded -/
  maxAnomalyRatio : Absent p "maxAnomalyRatio" ∨ ∃ f, p "maxAnomalyRatio" = some (.float f) ∧
    (f = .nan ∨ ∃ q : ℚ, f = .fin q ∧ 0 < q ∧ q ≤ 49 / 100)
  sensitivity : Absent p "sensitivity" ∨ ∃ v i, p "sensitivity" = some v ∧ IsInt v i ∧ 0 ≤ i ∧ i ≤ 100
  threshold : Absent p "threshold" ∨ ∃ f, p "threshold" = some (.float f)
  imputeMode : AbsentOrNone p "imputeMode" ∨ ∃ s ∈ fillNames, p "imputeMode" = some (.str s)
  imputeFixedValue : p "imputeMode" = some (.str "fixed") → ∃ v f, p "imputeFixedValue" = some v ∧ IsNumber v f
  fillUpMode : AbsentOrNone p "imputeMode" →
    AbsentOrNone p "fillUpMode" ∨ ∃ s ∈ fillNames, p "fillUpMode" = some (.str s)
  fixedValue : AbsentOrNone p "imputeMode" → p "fillUpMode" = some (.str "fixed") →
    ∃ v f, p "fixedValue" = some v ∧ IsNumber v f
  boundaryVersion : AbsentOrNone p "boundaryVersion" ∨
    ∃ s ∈ ["V1", "V2", "V3"], p "boundaryVersion" = some (.str s)

/-- the checks of the request parameters in the documented order, with the error code of each -/
def checks (p : Params) : List (String × Prop) :=
  [("InvalidGranularity", Absent p "granularity" ∨ ∃ s ∈ granularityNames, p "granularity" = some (.str s)),
   ("InvalidCustomInterval", Absent p "customInterval" ∨ ∃ v i, p "customInterval" = some v ∧ IsInt v i ∧ 1 ≤ i),
   ("InvalidPeriod", Absent p "period" ∨ ∃ v i, p "period" = some v ∧ IsInt v i ∧ 0 ≤ i),
   ("InvalidModelArgument",
      Absent p "alpha" ∨ ∃ v f, p "alpha" = some v ∧ IsNumber v f ∧ f ≠ .ninf ∧ ∀ q, f = .fin q → 0 < q),
   ("InvalidModelArgument", Absent p "maxAnomalyRatio" ∨ ∃ f, p "maxAnomalyRatio" = some (.float f) ∧
      (f = .nan ∨ ∃ q : ℚ, f = .fin q ∧ 0 < q ∧ q ≤ 49 / 100)),
   ("InvalidModelArgument", Absent p "sensitivity" ∨ ∃ v i, p "sensitivity" = some v ∧ IsInt v i ∧ 0 ≤ i ∧ i ≤ 100),
   ("InvalidModelArgument", Absent p "threshold" ∨ ∃ f, p "threshold" = some (.float f)),
   ("InvalidImputeMode", AbsentOrNone p "imputeMode" ∨ ∃ s ∈ fillNames, p "imputeMode" = some (.str s)),
   ("InvalidImputeFixedValue",
      p "imputeMode" = some (.str "fixed") → ∃ v f, p "imputeFixedValue" = some v ∧ IsNumber v f),
   ("InvalidFillUpMode", AbsentOrNone p "imputeMode" →
      AbsentOrNone p "fillUpMode" ∨ ∃ s ∈ fillNames, p "fillUpMode" = some (.str s)),
   ("InvalidFixedValue", AbsentOrNone p "imputeMode" → p "fillUpMode" = some (.str "fixed") →
      ∃ v f, p "fixedValue" = some v ∧ IsNumber v f),
   ("InvalidBoundaryVersion", AbsentOrNone p "boundaryVersion" ∨
      ∃ s ∈ ["V1", "V2", "V3"], p "boundaryVersion" = some (.str s))]

/-- the first check that does not hold has code `c` -/
def FirstFailure : List (String × Prop) → String → Prop
  | [], _ => False
  | (c, ok) :: t, d => (¬ ok ∧ d = c) ∨ (ok ∧ FirstFailure t d)

/-- the value can be used as a dict key (the parser looks it up in a mapping) -/
def Lookable (p : Params) (k : String) : Prop := ∀ v, p k = some v → (∀ l, v ≠ .list l) ∧ ∀ d, v ≠ .dict d

end Verif.Spec
