import Verif.Py
import Mathlib.Algebra.Order.BigOperators.Group.List
import Mathlib.Algebra.BigOperators.Ring.List
import Mathlib.Data.List.Sort
import Mathlib.Tactic.Linarith
import Mathlib.Tactic.Ring
import Mathlib.Tactic.FieldSimp
import Mathlib.Tactic.Positivity

/-!
# numpy/pandas reductions on finite float vectors

`np.sum`, `np.mean`, `np.var`, `np.min`, `np.max`, `np.median`, `np.interp`, `np.clip` on lists of rationals.
Reductions of an empty vector (NaN or an exception in numpy) are given the value 0; the callers in the
model only use them on nonempty vectors or test for emptiness first, as noted there.
-/

namespace Verif

/-- `EPS = 1e-8` (`univariate/util/fields.py:39`). -/
def EPS : ℚ := 1 / 100000000

/-- `np.mean` -/
def npMean (l : List ℚ) : ℚ := l.sum / l.length

/-- `np.var` (population variance) -/
def npVar (l : List ℚ) : ℚ := npMean (l.map fun x => (x - npMean l) ^ 2)

/-- `np.max` -/
def npMax : List ℚ → ℚ
  | [] => 0
  | a :: t => t.foldl max a

/-- `np.min` -/
def npMin : List ℚ → ℚ
  | [] => 0
  | a :: t => t.foldl min a

/-- ascending sort -/
def sortQ (l : List ℚ) : List ℚ := l.insertionSort (· ≤ ·)

/-- median of an ascending list: middle element, or mean of the two middle elements -/
def medianSorted (l : List ℚ) : ℚ :=
  if l.length % 2 = 1 then l.getD (l.length / 2) 0
  else (l.getD (l.length / 2 - 1) 0 + l.getD (l.length / 2) 0) / 2

/-- `np.median` -/
def npMedian (l : List ℚ) : ℚ := medianSorted (sortQ l)

/-- `np.clip(x, lo, hi)` -/
def npClip (x lo hi : ℚ) : ℚ := min (max x lo) hi

/-- `np.isclose(a, b)` with the default tolerances (`|a-b| <= 1e-8 + 1e-5*|b|`). -/
def isClose (a b : ℚ) : Bool := decide (|a - b| ≤ 1 / 100000000 + 1 / 100000 * |b|)

/-- linear interpolation at `x` through the points `pts` (abscissae ascending), constant outside:
`np.interp(x, xs, ys)`. -/
def npInterp (pts : List (ℚ × ℚ)) (x : ℚ) : ℚ :=
  match pts with
  | [] => 0
  | [(_, y)] => y
  | (x0, y0) :: (x1, y1) :: t =>
    if x ≤ x0 then y0
    else if x ≤ x1 then y0 + (y1 - y0) / (x1 - x0) * (x - x0)
    else npInterp ((x1, y1) :: t) x

/-! ### basic facts -/

theorem foldl_max_ge (l : List ℚ) (a : ℚ) : a ≤ l.foldl max a := by
  induction l generalizing a with
  | nil => simp
  | cons b t ih => exact le_trans (le_max_left a b) (ih _)

theorem foldl_max_mem_ge (l : List ℚ) (a x : ℚ) (h : x ∈ l) : x ≤ l.foldl max a := by
  induction l generalizing a with
  | nil => simp at h
  | cons b t ih =>
    rcases List.mem_cons.1 h with rfl | h
    · exact le_trans (le_max_right a x) (foldl_max_ge _ _)
    · exact ih _ h

theorem foldl_max_mem (l : List ℚ) (a : ℚ) : l.foldl max a = a ∨ l.foldl max a ∈ l := by
  induction l generalizing a with
  | nil => simp
  | cons b t ih =>
    rcases ih (max a b) with h | h
    · simp only [List.foldl_cons, h]
      rcases max_choice a b with h' | h' <;> simp [h']
    · right; simp [h]

theorem foldl_min_le (l : List ℚ) (a : ℚ) : l.foldl min a ≤ a := by
  induction l generalizing a with
  | nil => simp
  | cons b t ih => exact le_trans (ih _) (min_le_left a b)

theorem foldl_min_mem_le (l : List ℚ) (a x : ℚ) (h : x ∈ l) : l.foldl min a ≤ x := by
  induction l generalizing a with
  | nil => simp at h
  | cons b t ih =>
    rcases List.mem_cons.1 h with rfl | h
    · exact le_trans (foldl_min_le t (min a x)) (min_le_right a x)
    · exact ih _ h

theorem foldl_min_mem (l : List ℚ) (a : ℚ) : l.foldl min a = a ∨ l.foldl min a ∈ l := by
  induction l generalizing a with
  | nil => simp
  | cons b t ih =>
    rcases ih (min a b) with h | h
    · simp only [List.foldl_cons, h]
      rcases min_choice a b with h' | h' <;> simp [h']
    · right; simp [h]

theorem le_npMax {l : List ℚ} {x : ℚ} (h : x ∈ l) : x ≤ npMax l := by
  cases l with
  | nil => simp at h
  | cons a t =>
    rcases List.mem_cons.1 h with rfl | h
    · exact foldl_max_ge _ _
    · exact foldl_max_mem_ge _ _ _ h

theorem npMin_le {l : List ℚ} {x : ℚ} (h : x ∈ l) : npMin l ≤ x := by
  cases l with
  | nil => simp at h
  | cons a t =>
    rcases List.mem_cons.1 h with rfl | h
    · exact foldl_min_le _ _
    · exact foldl_min_mem_le _ _ _ h

theorem npMax_mem {l : List ℚ} (h : l ≠ []) : npMax l ∈ l := by
  cases l with
  | nil => simp at h
  | cons a t =>
    rcases foldl_max_mem t a with h | h
    · simp [npMax, h]
    · simp only [npMax]; exact List.mem_cons_of_mem _ h

theorem npMin_mem {l : List ℚ} (h : l ≠ []) : npMin l ∈ l := by
  cases l with
  | nil => simp at h
  | cons a t =>
    rcases foldl_min_mem t a with h | h
    · simp [npMin, h]
    · simp only [npMin]; exact List.mem_cons_of_mem _ h

theorem npMax_le {l : List ℚ} {b : ℚ} (hne : l ≠ []) (h : ∀ x ∈ l, x ≤ b) : npMax l ≤ b :=
  h _ (npMax_mem hne)

theorem le_npMin {l : List ℚ} {b : ℚ} (hne : l ≠ []) (h : ∀ x ∈ l, b ≤ x) : b ≤ npMin l :=
  h _ (npMin_mem hne)

@[simp] theorem length_sortQ (l : List ℚ) : (sortQ l).length = l.length := by
  simp [sortQ]

theorem sortQ_perm (l : List ℚ) : (sortQ l).Perm l := List.perm_insertionSort _ _

theorem sortQ_sorted (l : List ℚ) : (sortQ l).Pairwise (· ≤ ·) := List.pairwise_insertionSort _ l

theorem sum_nonneg_of {l : List ℚ} (h : ∀ x ∈ l, 0 ≤ x) : 0 ≤ l.sum := List.sum_nonneg h

theorem npMean_nonneg {l : List ℚ} (h : ∀ x ∈ l, 0 ≤ x) : 0 ≤ npMean l := by
  unfold npMean
  exact div_nonneg (sum_nonneg_of h) (by positivity)

theorem npVar_nonneg (l : List ℚ) : 0 ≤ npVar l := by
  unfold npVar
  apply npMean_nonneg
  intro x hx
  obtain ⟨y, _, rfl⟩ := List.mem_map.1 hx
  positivity

theorem EPS_pos : (0 : ℚ) < EPS := by unfold EPS; norm_num

end Verif
