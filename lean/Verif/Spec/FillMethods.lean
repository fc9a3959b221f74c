import Verif.Spec.Fill
import Verif.Spec.Kernel

/-!
# Specification: filling from neighbouring observations
-/

namespace Verif.Spec

/-- the values observed before position `p`, in order -/
def before (obs : List (Nat × ℚ)) (p : Nat) : List ℚ := (obs.filter fun a => decide (a.1 < p)).map Prod.snd

/-- the values observed after position `p`, in order -/
def after (obs : List (Nat × ℚ)) (p : Nat) : List ℚ := (obs.filter fun a => decide (p < a.1)).map Prod.snd

/-- the last `n` entries, or all if there are fewer -/
def lastN {α : Type} (n : Nat) (l : List α) : List α := l.drop (l.length - n)

/-- the last `bn` values observed before `p` and the first `fn` after it -/
def nearby (obs : List (Nat × ℚ)) (p bn fn : Nat) : List ℚ := lastN bn (before obs p) ++ (after obs p).take fn

/-- the observations that are a multiple of `T` away from position `p` -/
def inPhase (obs : List (Nat × ℚ)) (p T : Nat) : List (Nat × ℚ) := obs.filter fun a => decide (a.1 % T = p % T)

/-- `v` is the minimum, maximum, median or mean of `l` -/
def Reduces (method : String) (l : List ℚ) (v : ℚ) : Prop :=
  (method = "min" ∧ v ∈ l ∧ ∀ x ∈ l, v ≤ x) ∨ (method = "max" ∧ v ∈ l ∧ ∀ x ∈ l, x ≤ v) ∨
    (method = "median" ∧ l ≠ [] ∧ IsMedian l v) ∨ (method = "average" ∧ l ≠ [] ∧ v = mean l)

/-- sum of products -/
def dot : List ℚ → List ℚ → ℚ
  | x :: xs, y :: ys => x * y + dot xs ys
  | _, _ => 0

/-- the weights for `b` values before and `f` values after a position: those next to the boundary `bn` between the two sides -/
def weightsBefore (w : List ℚ) (bn b : Nat) : List ℚ := lastN b (w.take bn)
def weightsAfter (w : List ℚ) (bn f : Nat) : List ℚ := (w.drop bn).take f

/-- `v` is the average of `b` and `f` with the weights next to the boundary -/
def WeightedBy (w : List ℚ) (bn : Nat) (b f : List ℚ) (v : ℚ) : Prop :=
  (weightsBefore w bn b.length).sum + (weightsAfter w bn f.length).sum ≠ 0 ∧
    v = (dot b (weightsBefore w bn b.length) + dot f (weightsAfter w bn f.length)) /
      ((weightsBefore w bn b.length).sum + (weightsAfter w bn f.length).sum)

/-- the `bn` positions before `p` and the `fn` positions after it, at steps of `T`, are all observed -/
def AllSeen (obs : List (Nat × ℚ)) (p T bn fn : Nat) : Prop :=
  (∀ k < bn, ∃ a ∈ obs, a.1 + (k + 1) * T = p) ∧ ∀ k < fn, ∃ a ∈ obs, a.1 = p + (k + 1) * T

end Verif.Spec
