import Verif.Multi.Frame
import Verif.Uni.Rounding

/-!
# Multivariate helpers

Model of `multivariate/util.py`.
-/

namespace Verif.Multi

/-- numerical library functions used by the multivariate code. Finite floats are rational numbers. -/
structure NumEnv where
  /-- `torch.exp` -/
  exp : ℚ → ℚ
  /-- `np.e` -/
  e : ℚ
  /-- `torch.sigmoid` -/
  sigmoid : ℚ → ℚ
  /-- `torch.tanh` -/
  tanh : ℚ → ℚ
  /-- square root in BatchNorm -/
  sqrt : ℚ → ℚ
  /-- conversion to `torch.float` -/
  f32 : ℚ → ℚ
  /-- `torch.argsort(·, descending=True)`; the order of equal entries and of NaN is unspecified -/
  argsortDesc : List PyFloat → List Nat

/-- the laws of the numerical library that theorems may assume -/
structure NumEnv.WF (E : NumEnv) : Prop where
  exp_zero : E.exp 0 = 1
  exp_mono : Monotone E.exp
  exp_nonneg : ∀ x, 0 ≤ E.exp x
  e_lower : 1 < E.e
  exp_one : E.exp 1 ≤ E.e
  sigmoid_nonneg : ∀ x, 0 ≤ E.sigmoid x
  sigmoid_le_one : ∀ x, E.sigmoid x ≤ 1
  f32_mono : Monotone E.f32
  f32_int : ∀ n : ℤ, |n| ≤ 2 ^ 24 → E.f32 n = n
  argsort_perm : ∀ l, (E.argsortDesc l).Perm (List.range l.length)
  argsort_sorted : ∀ l : List ℚ,
    ((E.argsortDesc (l.map .fin)).map fun i => l.getD i 0).Pairwise (· ≥ ·)

/-- consecutive pieces of length `n` (the last may be shorter): the batches of a `DataLoader` without shuffling, and
`view` on a row-major buffer -/
def chunk {α} (n : Nat) (l : List α) : List (List α) :=
  (List.range ((l.length + n - 1) / n)).map fun i => (l.drop (i * n)).take n

/-- float addition -/
def fadd : PyFloat → PyFloat → PyFloat
  | .fin a, .fin b => .fin (a + b)
  | .nan, _ => .nan
  | _, .nan => .nan
  | .pinf, .ninf => .nan
  | .ninf, .pinf => .nan
  | .pinf, _ => .pinf
  | _, .pinf => .pinf
  | .ninf, _ => .ninf
  | _, .ninf => .ninf

/-- division of a float by a positive integer -/
def fdivNat : PyFloat → Nat → PyFloat
  | .fin a, n => .fin (a / n)
  | x, _ => x

/-- division of two finite floats by numpy: `x/0` is an infinity, `0/0` NaN -/
def npDiv (a b : ℚ) : PyFloat :=
  if b ≠ 0 then .fin (a / b) else if a = 0 then .nan else if 0 < a then .pinf else .ninf

/-- `AverageMeter` (`multivariate/util.py:10-25`) -/
structure Meter where
  sum : PyFloat
  avg : PyFloat
  count : Nat

/-- `reset` (`multivariate/util.py:17-20`) -/
def Meter.reset : Meter := ⟨.fin 0, .fin 0, 0⟩

/-- `update(val, num, is_sum=True)` (`multivariate/util.py:22-25`); every call in the code passes `is_sum=True` and
a positive `num` -/
def Meter.update (m : Meter) (val : PyFloat) (num : Nat) : Meter :=
  let s := fadd m.sum val
  let c := m.count + num
  ⟨s, fdivNat s c, c⟩

/-- `int(x)`: truncation toward zero -/
def pyInt (x : ℚ) : Int := if 0 ≤ x then x.floor else x.ceil

/-- `int(len(data) * p)`, the product in IEEE doubles -/
def intMul (n : Nat) (p : ℚ) : Int := pyInt (dmul n p)

/-- `a[i]` for a Python integer index of a vector: a negative index counts from the end -/
def pyIndex {α} (l : List α) (i : Int) : Except PyErr α :=
  let j := if i < 0 then i + l.length else i
  match if j < 0 then none else l[j.toNat]? with
  | some a => .ok a
  | none => .error .indexError

/-- `get_threshold(scores, p=0.95)` (`multivariate/util.py:28-32`); `0.95` is the nearest double -/
def getThreshold (scores : List ℚ) : Except PyErr ℚ :=
  if scores.length = 0 then .ok 0
  else pyIndex (sortQ scores) (intMul scores.length (roundDouble (95 / 100)))

/-- one element of `minmax_normalize` (`multivariate/util.py:35-43`) -/
def minmax (mn mx lo hi x : ℚ) : ℚ := npClip ((x - mn) / (mx - mn + 1 / 100000000)) lo hi

/-- `minmax_normalize` of one row against the vectors of minima and maxima (`multivariate/util.py:35-43`), with numpy
broadcasting of a vector of length 1 -/
def normRow (mn mx : List ℚ) (lo hi : ℚ) (row : List ℚ) : Except PyErr (List ℚ) :=
  if row.length = mn.length then .ok (List.zipWith (fun x m => minmax m.1 m.2 lo hi x) row (mn.zip mx))
  else match row, mn, mx with
    | [x], _, _ => .ok ((mn.zip mx).map fun m => minmax m.1 m.2 lo hi x)
    | _, [a], [b] => .ok (row.map fun x => minmax a b lo hi x)
    | _, _, _ => .error .valueError

/-- `|s.shift(±1) / s - 1|` for one row, `a` the shifted value and `b` the value (`multivariate/util.py:62-65`);
a missing value or a value outside the table gives NaN -/
def relChange : Option ℚ → Option ℚ → PyFloat
  | some a, some b =>
    if b = 0 then (if a = 0 then .nan else .pinf) else .fin |a / b - 1|
  | _, _ => .nan

/-- `np.maximum` on nonnegative floats: NaN wins -/
def fmaximum : PyFloat → PyFloat → PyFloat
  | .fin a, .fin b => .fin (max a b)
  | .nan, _ => .nan
  | _, .nan => .nan
  | _, _ => .pinf

/-- `np.clip(·, a_max=2, a_min=0)` of a nonnegative float; `none` is NaN -/
def clip02 : PyFloat → Option ℚ
  | .fin q => some (npClip q 0 2)
  | .pinf => some 2
  | _ => none

/-- `s_data = column + 0.0001` (`multivariate/util.py:61`) -/
def offsetCol (l : List (Option ℚ)) : List (Option ℚ) := l.map (·.map (· + 1 / 10000))

/-- `data2` (`multivariate/util.py:62-66`): the larger relative change to the two neighbours, clipped to `[0,2]` -/
def changes (l : List (Option ℚ)) : List (Option ℚ) :=
  (List.range l.length).map fun i =>
    let s := l.getD i none
    let before := if i = 0 then none else l.getD (i - 1) none
    clip02 (fmaximum (relChange before s) (relChange (l.getD (i + 1) none) s))

/-- `rolling(window).max()`: NaN unless the window is complete and has no NaN -/
def rollingMax (w : Nat) (l : List (Option ℚ)) : List (Option ℚ) :=
  (List.range l.length).map fun i =>
    if i + 1 < w ∨ w = 0 then none
    else ((l.drop (i + 1 - w)).take w).mapM id |>.map npMax

/-- `mean()`, ignoring NaN; NaN if nothing remains -/
def nanMean (l : List (Option ℚ)) : Option ℚ :=
  let v := l.filterMap id
  if v.isEmpty then none else some (npMean v)

/-- the volatility of one column (`multivariate/util.py:61-67`) -/
def volatility (window : Nat) (l : List (Option ℚ)) : Option ℚ :=
  nanMean (rollingMax window (changes (offsetCol l)))

/-- `pct_weight[i] > max_pct_weight` -/
def volatile (v : Option ℚ) : Bool :=
  match v with
  | some x => decide (19 / 10 < x)
  | none => false

/-- `get_multiple_variables_pct_weight_score(data, window)` (`multivariate/util.py:46-76`) on the cells of the frame
passed to `fit`. Division by the number of variables raises when only a `timestamp` column is left. -/
def pctWeight (window : Nat) (f : Frame) : Except Stop (List ℚ) :=
  let f1 : Frame := ⟨f.index, f.cols.filter fun c => c.name ≠ "timestamp"⟩
  let g := selectCols f1 (sortedNames f1)
  match g.cols.mapM fun c => astypeFloat c.cells with
  | none => .error .unmodelled
  | some cols =>
    if cols.length = 0 then .error (.err .zeroDivision)
    else
      let vol := cols.map (volatility window)
      let value : ℚ := (vol.countP volatile : ℚ) / cols.length
      .ok (vol.map fun v => if volatile v then value else 1)

/-- `append_result` (`multivariate/util.py:79-84`) -/
def appendResult {α} (result : Option (List α)) (batch : List α) : Option (List α) :=
  match result with
  | none => some batch
  | some r => some (r ++ batch)

/-- `compute_anomaly_scores` (`multivariate/util.py:87-88`) -/
def anomalyScore (rmse prob gamma : ℚ) : ℚ := (prob * gamma + rmse) / (1 + gamma)

/-- `compute_severity` (`multivariate/util.py:91-92`) -/
def severityOf (E : NumEnv) (scores : List ℚ) : List ℚ := scores.map fun s => s / (E.e - 1)

end Verif.Multi
