import Verif.Multi.Util

/-!
# Sliding windows

Model of `multivariate/dataset.py` and of the batches a `DataLoader` forms.
-/

namespace Verif.Multi

/-- a sample: the window (rows) and the target row -/
structure Sample where
  input : List (List ℚ)
  target : List ℚ

/-- `MultiADDataset` (`dataset.py:19-49`) -/
structure Dataset where
  data : List (List ℚ)
  window : Nat
  interval : Nat
  horizon : Nat
  maxs : List ℚ
  mins : List ℚ
  clipMin : ℚ
  clipMax : ℚ

/-- `get_x_end_idx` (`dataset.py:51-59`): every `interval`-th element of `range(window, len - horizon + 1)`. The
interval is positive in the modelled configurations. -/
def Dataset.ends (D : Dataset) : List Nat :=
  (List.range ((D.data.length + 1 - D.horizon - D.window) / D.interval)).map fun j => D.window + j * D.interval

/-- the rows `lo:hi` of a window (`dataset.py:70-72`) -/
def Dataset.windowRows (D : Dataset) (hi : Nat) : List (List ℚ) := (D.data.drop (hi - D.window)).take D.window

/-- `__getitem__` (`dataset.py:64-82`) for the window ending before row `hi` -/
def Dataset.get (E : NumEnv) (D : Dataset) (hi : Nat) : Except PyErr Sample := do
  let t ← pyIndex D.data ((hi : Int) - 1 + D.horizon)
  let x ← (D.windowRows hi).mapM (normRow D.mins D.maxs D.clipMin D.clipMax)
  let y ← normRow D.mins D.maxs D.clipMin D.clipMax t
  pure ⟨x.map (·.map E.f32), y.map E.f32⟩

/-- all samples in order -/
def Dataset.samples (E : NumEnv) (D : Dataset) : Except PyErr (List Sample) := D.ends.mapM (D.get E)

end Verif.Multi
