import Verif.Multi.Frame

/-!
# Specification: filling a table

Stated on the caller's table; of the model only the table types are used.
-/

namespace Verif.Spec

open Multi

/-- cell `p` of the column holds the value `v` -/
def At (l : List (Option ℚ)) (p : Nat) (v : ℚ) : Prop := l[p]? = some (some v)

/-- `v` is the last value before position `i`, at position `p` -/
def Before (l : List (Option ℚ)) (i p : Nat) (v : ℚ) : Prop :=
  p < i ∧ At l p v ∧ ∀ q, p < q → q < i → ∀ u, ¬ At l q u

/-- `v` is the first value after position `i`, at position `p` -/
def After (l : List (Option ℚ)) (i p : Nat) (v : ℚ) : Prop :=
  i < p ∧ At l p v ∧ ∀ q, i < q → q < p → ∀ u, ¬ At l q u

/-- no value before position `i` -/
def NoneBefore (l : List (Option ℚ)) (i : Nat) : Prop := ∀ p v, p < i → ¬ At l p v

/-- no value after position `i` -/
def NoneAfter (l : List (Option ℚ)) (i : Nat) : Prop := ∀ p v, i < p → ¬ At l p v

/-- the value a missing cell gets from the method called `m`, with the fixed value `c` -/
structure FilledBy (m : String) (c : ℚ) (l : List (Option ℚ)) (i : Nat) (x : ℚ) : Prop where
  previous : m = "Previous" → (∃ p, Before l i p x) ∨ (NoneBefore l i ∧ ∃ p, After l i p x) ∨
    (NoneBefore l i ∧ NoneAfter l i ∧ x = 0)
  subsequent : m = "Subsequent" → (∃ p, After l i p x) ∨ (NoneAfter l i ∧ ∃ p, Before l i p x) ∨
    (NoneBefore l i ∧ NoneAfter l i ∧ x = 0)
  linear : m = "Linear" →
    (∃ p u q v, Before l i p u ∧ After l i q v ∧ x = u + (v - u) * ((i : ℚ) - p) / ((q : ℚ) - p)) ∨
    (NoneBefore l i ∧ ∃ p, After l i p x) ∨ (NoneAfter l i ∧ ∃ p, Before l i p x) ∨
    (NoneBefore l i ∧ NoneAfter l i ∧ x = 0)
  fixed : m = "Fixed" → x = c
  zero : m = "Zero" → x = 0

/-- the number in a cell, if any -/
def number : Cell → Option ℚ
  | .num q => some q
  | _ => none

/-- `col` is the column `cells` with the missing cells filled by the method called `m` -/
structure FilledColumn (m : String) (c : ℚ) (cells : List Cell) (col : List ℚ) : Prop where
  len : col.length = cells.length
  kept : ∀ (i : Nat) v, cells[i]? = some (.num v) → col[i]? = some v
  filled : ∀ i : Nat, cells[i]? = some .nan → ∃ x, col[i]? = some x ∧ FilledBy m c (cells.map number) i x

/-- the frame holds the cell `c` in the row labelled `label` and the column called `name` -/
def Has (f : Frame) (label : Int) (name : String) (c : Cell) : Prop :=
  ∃ (i : Nat) (k : Column), f.index[i]? = some label ∧ k ∈ f.cols ∧ k.name = name ∧ k.cells[i]? = some c

/-- the two frames hold the same cells under the same labels and names, possibly in a different order -/
structure SameData (f g : Frame) : Prop where
  labels : f.index.Perm g.index
  names : (f.cols.map (·.name)).Perm (g.cols.map (·.name))
  cells : ∀ label name c, Has f label name c ↔ Has g label name c

end Verif.Spec
