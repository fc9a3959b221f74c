import Verif.Py
import Mathlib.Algebra.Order.Field.Rat
import Mathlib.Data.List.Perm.Basic
import Mathlib.Order.Basic
import Mathlib.Algebra.BigOperators.Group.Finset.Basic

/-!
# Specification: order statistics
-/

namespace Verif.Spec

/-- `v` is at position `k` (from 0) when `l` is put in ascending order -/
def IsRank {α : Type} [LinearOrder α] (l : List α) (k : Nat) (v : α) : Prop :=
  ∃ s : List α, s.Perm l ∧ s.Pairwise (· ≤ ·) ∧ s[k]? = some v

/-- `m` is the median of `l`: the middle value, or the mean of the two middle values -/
def IsMedian (l : List ℚ) (m : ℚ) : Prop :=
  (l.length % 2 = 1 ∧ IsRank l (l.length / 2) m) ∨
  (l.length % 2 = 0 ∧ ∃ a b, IsRank l (l.length / 2 - 1) a ∧ IsRank l (l.length / 2) b ∧ m = (a + b) / 2)

/-- arithmetic mean -/
def mean (l : List ℚ) : ℚ := l.sum / l.length

/-- the entries at distance at most `half` from position `i` -/
def around (half : Nat) (l : List ℚ) (i : Nat) : List ℚ := (l.take (i + half + 1)).drop (i - half)

/-- positions of `l` in the season `c` of a period -/
def season (l : List ℚ) (period c : Nat) : Finset Nat := {q ∈ Finset.range l.length | q % period = c}

/-- mean of the entries of `l` at the positions `s` -/
def avg (l : List ℚ) (s : Finset Nat) : ℚ := (∑ q ∈ s, l.getD q 0) / s.card

/-- leave-one-out error at position `p`: the entry minus the mean of the other entries of its season -/
def looError (l : List ℚ) (period p : Nat) : ℚ :=
  l.getD p 0 - avg l ((season l period (p % period)).erase p)

/-- mean squared leave-one-out error -/
def looMse (l : List ℚ) (period : Nat) : ℚ :=
  (∑ p ∈ Finset.range l.length, looError l period p ^ 2) / l.length

/-- the entries of the season of position `p`, in order -/
def seasonOf (l : List ℚ) (period p : Nat) : List ℚ :=
  ((List.range l.length).filter fun q => q % period = p % period).map fun q => l.getD q 0

/-- the one-sided test of the extreme value `v` against a centre and a spread (at least 1e-8): the distance in the
tested direction exceeds `t` spreads -/
def Extreme (t : PyFloat) (upper : Bool) (v centre spread : ℚ) : Prop :=
  t.lt (.fin ((if upper then v - centre else centre - v) / max spread (1 / 10 ^ 8))) = true

/-- entry `k` of the ranking `values` fails the generalized ESD test with critical value `t`: it is extreme with
respect to the median and scaled median absolute deviation of the entries from `k` on, or to their mean and standard
deviation. `c` is the 75% quantile of the normal distribution. -/
def Outlying (c : ℚ) (std : List ℚ → ℚ) (values : List ℚ) (upper : Bool) (t : PyFloat) (k : Nat) : Prop :=
  ∃ v med mad, values[k]? = some v ∧ IsMedian (values.drop k) med ∧
    IsMedian ((values.drop k).map fun x => |x - med|) mad ∧
    (Extreme t upper v med (mad / c) ∨
      Extreme t upper v (mean (values.drop k)) (std (values.drop k)))

/-- points proposed by some detector -/
def Proposed (ps : List (List Nat)) (x : Nat) : Prop := ∃ p ∈ ps, x ∈ p

/-- priority of a proposed point (smaller is better): `n` for every detector before the first that proposes it, plus
its rank in every detector that proposes it -/
def priority (n : Nat) (ps : List (List Nat)) (x : Nat) : Nat :=
  n * ps.findIdx (·.contains x) + (ps.map fun p => if x ∈ p then p.idxOf x else 0).sum

/-- `r` lists all positions of `l`, the largest entries first for `upper`, the smallest first otherwise -/
structure Ranking (l : List ℚ) (upper : Bool) (r : List Nat) : Prop where
  perm : r.Perm (List.range l.length)
  order : r.Pairwise fun i j => if upper then l.getD j 0 ≤ l.getD i 0 else l.getD i 0 ≤ l.getD j 0

/-- numpy's default tolerance -/
def Near (a b : ℚ) : Prop := |a - b| ≤ 1 / 10 ^ 8 + |b| / 10 ^ 5

/-- `m` is the majority value of `l`: the scaled median absolute deviation is at most 1e-8, `m` is the (lower) median,
and it is near neither the smallest nor the largest entry. `c` is the 75% quantile of the normal distribution. -/
structure IsMajority (c : ℚ) (l : List ℚ) (m : ℚ) : Prop where
  spread : ∃ med mad, IsMedian l med ∧ IsMedian (l.map fun x => |x - med|) mad ∧ |mad / c| ≤ 1 / 10 ^ 8
  value : IsRank l ((l.length - 1) / 2) m
  not_min : ∀ v, IsRank l 0 v → ¬ Near m v
  not_max : ∀ v, IsRank l (l.length - 1) v → ¬ Near m v

/-- the values on the tested side of the majority value, which is included with a tolerance of 1e-8 -/
def OnSide (upper : Bool) (m v : ℚ) : Prop := if upper then m - 1 / 10 ^ 8 < v else v < m + 1 / 10 ^ 8

/-- the critical value for rank `k` (from 0) of `n` points: from the table if alpha is 0.05 and the table is long
enough, else computed -/
def CriticalValue (table : List ℚ) (computed : Nat → PyFloat → Nat → PyFloat) (alpha : PyFloat) (n k : Nat)
    (t : PyFloat) : Prop :=
  ((∃ a, alpha = .fin a ∧ Near a (5 / 100)) ∧ n ≤ table.length ∧
    ∃ q, table[table.length - n + k]? = some q ∧ t = .fin q) ∨
  (¬ ((∃ a, alpha = .fin a ∧ Near a (5 / 100)) ∧ n ≤ table.length) ∧ t = computed (k + 1) alpha n)

/-- `l'` is `l` scaled to [0,1], or `l` itself if all entries are equal -/
def Normalised (l l' : List ℚ) : Prop :=
  ((∃ v, ∀ x ∈ l, x = v) ∧ l' = l) ∨
  ∃ lo hi, IsRank l 0 lo ∧ IsRank l (l.length - 1) hi ∧ lo < hi ∧ l' = l.map fun x => (x - lo) / (hi - lo)

/-- population variance -/
def variance (l : List ℚ) : ℚ := mean (l.map fun x => (x - mean l) ^ 2)

/-- centre and scale of the z-score: median and scaled median absolute deviation, or mean and standard deviation if the
former deviation is 0 -/
def ZScale (c : ℚ) (sqrt : ℚ → ℚ) (l : List ℚ) (centre scale : ℚ) : Prop :=
  ∃ med mad, IsMedian l med ∧ IsMedian (l.map fun x => |x - med|) mad ∧
    ((mad ≠ 0 ∧ centre = med ∧ scale = mad / c) ∨ (mad = 0 ∧ centre = mean l ∧ scale = sqrt (variance l)))

/-- `L` is a fusion of the proposals `ps`: no point twice, only proposed points, at most `m`, all of them if fewer than
`m` are in `L`, ordered by priority, and no omitted point has a better priority than a selected one -/
structure Fused (n m : Nat) (ps : List (List Nat)) (L : List Nat) : Prop where
  nodup : L.Nodup
  proposed : ∀ x ∈ L, Proposed ps x
  bound : L.length ≤ m
  full : L.length < m → ∀ x, Proposed ps x → x ∈ L
  order : L.Pairwise fun x y => priority n ps x ≤ priority n ps y
  best : ∀ x ∈ L, ∀ y, Proposed ps y → y ∉ L → priority n ps x ≤ priority n ps y

/-- `ds` are the `k`-th differences (`k` = 1 or 2) of `v`, of the same length; the first entries repeat the first
difference there is -/
def Differences (k : Nat) (v ds : List ℚ) : Prop :=
  (k = 1 ∧ ds.length = v.length ∧
    ∀ i, i < v.length → ds.getD i 0 = v.getD (max i 1) 0 - v.getD (max i 1 - 1) 0) ∨
  (k = 2 ∧ ∃ d1 : List ℚ, d1.length = v.length ∧ ds.length = v.length ∧
    (∀ i, i < v.length → d1.getD i 0 = v.getD (max i 1) 0 - v.getD (max i 1 - 1) 0) ∧
    ∀ i, i < v.length → ds.getD i 0 = d1.getD (max i 2) 0 - d1.getD (max i 2 - 1) 0)

/-- predicted first differences from predicted `k`-th differences `e`: `e` itself, or for `k = 2` summed up from the
third entry on, starting from `first` -/
def Summed (k : Nat) (first : ℚ) (e r : List ℚ) : Prop :=
  (k = 1 → r = e) ∧
  (k = 2 → ∀ i, i < e.length → r.getD i 0 = if i ≤ 1 then first else r.getD (i - 1) 0 + e.getD i 0)

end Verif.Spec
