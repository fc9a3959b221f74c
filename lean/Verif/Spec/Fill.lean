import Mathlib.Algebra.Order.Field.Rat

/-!
# Specification: a gapped series on a regular grid

A series is a list of observed `(position, value)` pairs. Nothing of the model is used.
-/

namespace Verif.Spec

/-- observations in grid order, the first at position 0, the last at the end of a grid of `n` positions -/
structure Gapped (obs : List (Nat × ℚ)) (n : Nat) : Prop where
  ascending : obs.Pairwise fun a b => a.1 < b.1
  first : ∃ v, (0, v) ∈ obs
  last : ∃ v, 0 < n ∧ (n - 1, v) ∈ obs
  inside : ∀ a ∈ obs, a.1 < n

/-- nothing was observed at `p` -/
def Missing (obs : List (Nat × ℚ)) (p : Nat) : Prop := ∀ v, (p, v) ∉ obs

/-- `a` is the last observation before `p` -/
def LastBefore (obs : List (Nat × ℚ)) (p : Nat) (a : Nat × ℚ) : Prop :=
  a ∈ obs ∧ a.1 < p ∧ ∀ b ∈ obs, b.1 < p → b.1 ≤ a.1

/-- `b` is the first observation after `p` -/
def FirstAfter (obs : List (Nat × ℚ)) (p : Nat) (b : Nat × ℚ) : Prop :=
  b ∈ obs ∧ p < b.1 ∧ ∀ c ∈ obs, p < c.1 → b.1 ≤ c.1

/-- `full` has a value at every grid position and the observed value where there is one -/
structure Completes (obs : List (Nat × ℚ)) (n : Nat) (full : List ℚ) : Prop where
  len : full.length = n
  keeps : ∀ a ∈ obs, full[a.1]? = some a.2

/-- `tags` marks exactly the missing positions -/
def Tagged (obs : List (Nat × ℚ)) (n : Nat) (tags : List Bool) : Prop :=
  tags.length = n ∧ ∀ p < n, (tags[p]? = some true ↔ Missing obs p)

/-- gaps carry the last observed value -/
def FilledPrevious (obs : List (Nat × ℚ)) (n : Nat) (full : List ℚ) : Prop :=
  ∀ p < n, Missing obs p → ∀ a, LastBefore obs p a → full[p]? = some a.2

/-- gaps carry the constant `c` -/
def FilledConstant (obs : List (Nat × ℚ)) (n : Nat) (c : ℚ) (full : List ℚ) : Prop :=
  ∀ p < n, Missing obs p → full[p]? = some c

/-- gaps lie on the straight line between the neighbouring observations -/
def FilledLinear (obs : List (Nat × ℚ)) (n : Nat) (full : List ℚ) : Prop :=
  ∀ p < n, Missing obs p → ∀ a b, LastBefore obs p a → FirstAfter obs p b →
    full[p]? = some (a.2 + (b.2 - a.2) * ((p : ℚ) - a.1) / ((b.1 : ℚ) - a.1))

/-- every value lies between two observed values -/
def WithinObserved (obs : List (Nat × ℚ)) (full : List ℚ) : Prop :=
  ∀ x ∈ full, (∃ a ∈ obs, a.2 ≤ x) ∧ ∃ b ∈ obs, x ≤ b.2

end Verif.Spec
