import Verif.Multi.Model
import Verif.Spec.Kernel

/-!
# Specification: multivariate scores

What a row of the table scores, cell by cell. The network is a function of one window; of the model only the data types and the
numerical environment are used.
-/

namespace Verif.Spec

open Multi

/-- an entry of a vector, where a vector of length 1 stands for a constant vector (numpy broadcasting) -/
def entry (l : List ℚ) (v : Nat) : ℚ := if l.length = 1 then l.getD 0 0 else l.getD v 0

/-- cell of a table given by its rows -/
def cell (rows : List (List ℚ)) (r v : Nat) : ℚ := (rows.getD r []).getD v 0

/-- all that the scores of a prediction depend on, beside the data -/
structure Scorer where
  E : NumEnv
  /-- rows of a window -/
  input : Nat
  /-- number of variables -/
  dim : Nat
  mins : List ℚ
  maxs : List ℚ
  weights : List ℚ
  /-- forecast of the row after a window -/
  forecast : List (List ℚ) → List ℚ
  /-- attention between the variables in a window -/
  attention : List (List ℚ) → List (List ℚ)

/-- normalised cell: position relative to minimum and maximum, cut to `[-1000, 1000]`, single precision -/
def Scorer.normed (S : Scorer) (rows : List (List ℚ)) (r v : Nat) : ℚ :=
  S.E.f32 (max (-1000) (min 1000
    ((cell rows r v - entry S.mins v) / (entry S.maxs v - entry S.mins v + 1 / 100000000))))

/-- the window before row `r` -/
def Scorer.window (S : Scorer) (rows : List (List ℚ)) (r : Nat) : List (List ℚ) :=
  (List.range S.input).map fun i => (List.range S.dim).map fun v => S.normed rows (r - S.input + i) v

/-- the weighted contribution of variable `v` to the score of row `r` -/
def Scorer.contribution (S : Scorer) (rows : List (List ℚ)) (r v : Nat) : ℚ :=
  (S.E.exp (min (2 * |(S.forecast (S.window rows r)).getD v 0 - S.normed rows r v|) 1) - 1) * entry S.weights v

/-- the score of row `r`: the mean contribution -/
def Scorer.score (S : Scorer) (rows : List (List ℚ)) (r : Nat) : ℚ :=
  ((List.range S.dim).map (S.contribution rows r)).sum / S.dim

/-- the detector holds a network, a normalisation range, weights and a threshold; `S` and `th` are what they are for scoring, `tw` is
the length of the threshold window. The network is run on one window alone. -/
structure Trained {TS : Type} (E : MEnv TS) (d : Det) (S : Scorer) (tw : Nat) (th : ℚ) : Prop where
  env : S.E = E.toNumEnv
  config : ∃ c, d.config = some c ∧ S.input = c.inputSize ∧ tw = c.thresholdWindow ∧ c.base = some (S.maxs, S.mins)
  weights : d.pct = some S.weights
  threshold : d.threshold = some th
  network : ∃ m N, d.model = some ⟨m, some N⟩ ∧ S.dim = m.dataDim ∧
    ∀ x o, forward E.toNumEnv m N [x] = .ok [o] → S.forecast x = o.pred ∧ S.attention x = o.attn

/-- the table `predict` and `fit` work on: the caller's table, sorted and filled as the params dict says -/
def Filled {TS : Type} (E : MEnv TS) (p : Params) (f : Frame) (t : Table) : Prop :=
  ∃ proc, Processor.init E.toTableEnv ((p "fill_na_method").getD (.str "Linear"))
      ((p "fill_na_value").getD (.float (.fin 0))) = .ok proc ∧ proc.process E.toTableEnv (.frame f) = .ok t

/-- the params dict after a call: the keys `MultiADConfig` does not have are gone, three are overwritten -/
def _root_.Verif.Params.after (p : Params) (sizes : Nat × Nat) (dim : Nat) : Params := fun k =>
  if k = "data_dim" then some (.int dim)
  else if k ∈ validFields then
    if k = "threshold_window" then some (.int sizes.2) else if k = "input_size" then some (.int sizes.1) else p k
  else none

/-- the table and the params dict are usable: the table is well formed and can be filled (the result is `t`), the window parameter can
be read and the other parameters are in the ranges covered (`Config.ofParams`); `c` is the configuration they describe -/
structure Accepted {TS : Type} (E : MEnv TS) (p : Params) (f : Frame) (t : Table) (c : Config) : Prop where
  wellFormed : f.ok = true
  filled : Filled E p f t
  config : ∃ sizes, windowSizes E (p "sliding_window") = .ok sizes ∧
    Config.ofParams (p.after sizes t.names.length) t.names.length sizes.1 sizes.2 = .ok c

/-- a prediction for the table `f` with the detector left in `w'` -/
structure Predicted {TS : Type} (E : MEnv TS) (w w' : World) (data : MData) (f : Frame) (t : Table) (S : Scorer) (tw : Nat)
    (th : ℚ) : Prop where
  data : data = .frame f
  table : Filled E w.params f t
  trained : Trained E w'.det S tw th

/-- the scores of the rows `a, …, a + n - 1` -/
def Scorer.scores (S : Scorer) (rows : List (List ℚ)) (a n : Nat) : List ℚ :=
  (List.range n).map fun j => S.score rows (a + j)

/-- `x` is the 95% order statistic of the list -/
def Is95 (l : List ℚ) (x : ℚ) : Prop := IsRank l (95 * l.length / 100) x

/-- the series of one variable in a window -/
def series (x : List (List ℚ)) (v : Nat) : List ℚ := x.map fun r => r.getD v 0

/-- change of the attention variable `i` pays to variable `j`, at row `r`, relative to the mean over the threshold window -/
def Scorer.attnShift (S : Scorer) (tw : Nat) (rows : List (List ℚ)) (r i j : Nat) : ℚ :=
  ((S.attention (S.window rows r)).getD i []).getD j 0 -
    ((List.range tw).map fun a => ((S.attention (S.window rows (r - (tw - 1) + a))).getD i []).getD j 0).sum / tw

/-- changes of attention at most this are not reported, for `n` variables -/
def reportCutoff (n : Nat) : ℚ := min (1 / 1000) (1 / (5 / 4 * n))

/-- what the interpretation of a row lists for variable `v` -/
structure Listed (S : Scorer) (tw : Nat) (names : List String) (rows : List (List ℚ)) (r v : Nat) (c : Contribution) : Prop where
  name : names[v]? = some c.name
  score : c.score = npDiv (S.contribution rows r v) ((List.range S.dim).map (S.contribution rows r)).sum
  changes : ∃ sel : List Nat, sel.Nodup ∧ (∀ j ∈ sel, j < S.dim) ∧ sel.length ≤ 10 ∧
    c.changedVals = sel.map (S.attnShift tw rows r v) ∧ sel.map (names[·]?) = c.changedVars.map some ∧
    (sel.map fun j => |S.attnShift tw rows r v j|).Pairwise (· ≥ ·) ∧
    (∀ j ∈ sel, reportCutoff names.length < |S.attnShift tw rows r v j|) ∧
    ∀ j < S.dim, j ∉ sel → |S.attnShift tw rows r v j| ≤ reportCutoff names.length ∨
      (sel.length = 10 ∧ ∀ i ∈ sel, |S.attnShift tw rows r v j| ≤ |S.attnShift tw rows r v i|)

/-- the training state after `k` epochs on the given training samples -/
def stateAfter {TS : Type} (E : MEnv TS) (c : Config) (train : List Sample) : Nat → TS
  | 0 => E.initState c
  | k + 1 => (trainEpoch E c train (stateAfter E c train k)).1

/-- the network after `k` epochs -/
def netAfter {TS : Type} (E : MEnv TS) (c : Config) (train : List Sample) (k : Nat) : Option Net :=
  E.weights c (stateAfter E c train k)

/-- the validation loss reported in epoch `k` (counted from 0) -/
def epochLoss {TS : Type} (E : MEnv TS) (c : Config) (train val : List Sample) (k : Nat) : PyFloat :=
  (evalEpoch E c (netAfter E c train (k + 1)) (chunk c.batchSize val)).avg

/-- `i` is the first of `n` epochs with the smallest loss, and that loss is below infinity -/
structure IsBest (loss : Nat → PyFloat) (n i : Nat) : Prop where
  lt : i < n
  below : (loss i).lt .pinf = true
  least : ∀ j < n, (loss j).lt (loss i) = false
  first : ∀ j < i, loss j = .nan ∨ (loss i).lt (loss j) = true

/-- a cell relative to the range `[mn, mx]`, cut to `[lo, hi]`, single precision -/
def normAt (E : NumEnv) (lo hi mn mx x : ℚ) : ℚ := E.f32 (max lo (min hi ((x - mn) / (mx - mn + 1 / 100000000))))

/-- normalised row `r`: every one of its `dim` cells relative to the range of its variable -/
def normRowAt (E : NumEnv) (lo hi : ℚ) (dim : Nat) (mins maxs : List ℚ) (rows : List (List ℚ)) (r : Nat) : List ℚ :=
  (List.range dim).map fun v => normAt E lo hi (mins.getD v 0) (maxs.getD v 0) (cell rows r v)

/-- `ss` are the samples cut from `rows`: sample `j` has the `input` rows from `j·step` on as window and the row `horizon` after the
window as target; there are as many as the loader makes of the possible positions -/
structure Windows (E : NumEnv) (lo hi : ℚ) (dim : Nat) (mins maxs : List ℚ) (input step horizon : Nat) (rows : List (List ℚ))
    (ss : List Sample) : Prop where
  count : ss.length = (rows.length + 1 - horizon - input) / step
  inside : ∀ j < ss.length, j * step + input + horizon - 1 < rows.length ∧ j * step + input ≤ j * step + input + horizon - 1
  window : ∀ j, ∀ hj : j < ss.length,
    ss[j].input = (List.range input).map fun i => normRowAt E lo hi dim mins maxs rows (j * step + i)
  target : ∀ j, ∀ hj : j < ss.length, ss[j].target = normRowAt E lo hi dim mins maxs rows (j * step + input + horizon - 1)

/-- the rows a `fit` trains on and validates with, its normalisation range, and the samples. `t` is the filled table; `c` is the
configuration the params dict describes, with the range. -/
structure Prepared {TS : Type} (E : MEnv TS) (p : Params) (f : Frame) (t : Table) (c : Config) (train val : List (List ℚ))
    (ts vs : List Sample) : Prop where
  accepted : Accepted E p f t { c with base := none }
  dim : c.dataDim = t.names.length
  train_eq : train = t.rows.take ⌊dmul t.rows.length c.trainRatio⌋₊
  val_eq : val = (t.rows.drop ⌊dmul t.rows.length c.trainRatio⌋₊).take ⌊dmul t.rows.length c.valRatio⌋₊
  nonempty : train ≠ []
  range : ∃ maxs mins, c.base = some (maxs, mins) ∧ maxs.length = c.dataDim ∧ mins.length = c.dataDim ∧
    (∀ v < c.dataDim, IsGreatest {x | ∃ r < train.length, x = cell train r v} (maxs.getD v 0) ∧
      IsLeast {x | ∃ r < train.length, x = cell train r v} (mins.getD v 0)) ∧
    Windows E.toNumEnv 0 1 c.dataDim mins maxs c.inputSize c.interval c.horizon train ts ∧
    Windows E.toNumEnv (-1000) 1000 c.dataDim mins maxs c.inputSize 1 1 val vs

/-! ### variable weights -/

/-- how much an observed cell differs from its two neighbours: the larger relative difference, at most 2. The cell is increased by
0.0001 before the division; a cell that is then 0 counts as 2 if both neighbours differ from it. First and last row, missing cells
and cells beside missing cells have none. -/
def Swing (col : List (Option ℚ)) (i : Nat) (s : ℚ) : Prop :=
  ∃ a b c, 0 < i ∧ col[i - 1]? = some (some a) ∧ col[i]? = some (some b) ∧ col[i + 1]? = some (some c) ∧
    ((b + 1 / 10000 ≠ 0 ∧ s = min 2 (max |(a - b) / (b + 1 / 10000)| |(c - b) / (b + 1 / 10000)|)) ∨
      (b + 1 / 10000 = 0 ∧ a ≠ b ∧ c ≠ b ∧ s = 2))

/-- the largest swing in the `w` rows ending at row `i`, all of which have one -/
def Peak (w : Nat) (col : List (Option ℚ)) (i : Nat) (m : ℚ) : Prop :=
  0 < w ∧ w ≤ i + 1 ∧ (∀ j, i + 1 - w ≤ j → j ≤ i → ∃ s, Swing col j s) ∧
    IsGreatest {s | ∃ j, i + 1 - w ≤ j ∧ j ≤ i ∧ Swing col j s} m

/-- the mean of the peaks of all rows that have one is above 1.9 -/
def Volatile (w : Nat) (col : List (Option ℚ)) : Prop :=
  ∃ (rows : List Nat) (peaks : List ℚ), rows.Pairwise (· < ·) ∧ (∀ i, i ∈ rows ↔ ∃ m, Peak w col i m) ∧
    List.Forall₂ (Peak w col) rows peaks ∧ peaks ≠ [] ∧ 19 / 10 < peaks.sum / peaks.length

end Verif.Spec
