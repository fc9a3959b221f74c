import Verif.Uni.FillUp

/-!
# All fill methods

`FillingUpProcess.fill_up` (`univariate/filling_up/fill_up.py:146-204`) with every method and keyword argument, and the two reports on
gaps. `Uni/FillUp.lean` has the calls that `predict` makes.

Simplifications: `backward_n` and `forward_n` are natural numbers, `weights` is a list of finite floats, `maximum_fillup_length` is
the default; unknown keyword arguments, which the functions ignore, do not occur.
-/

namespace Verif

/-- How a call can fail to return. `hang`: the loop `fill_up.py:97-119` does not end. `unmodelled`: `np.average` or `np.median` of no values,
which is NaN (only for `backward_n = forward_n = 0`). -/
inductive FillStop where
  | err (e : PyErr)
  | hang
  | unmodelled
  deriving DecidableEq

/-- `if_exception` (`fill_up.py:170-175`) -/
inductive OnError where
  | raise | none | last
  deriving DecidableEq

/-- `if_short_of_knowledge` (`fill_up.py:177-182`) -/
inductive OnShort where
  | raise | none | tryBest | ignore
  deriving DecidableEq

/-- keyword arguments of `fill_up`; `none`: not given (or, for `period` and `number`, `None`). `weights` distinguishes the two. -/
structure FillArgs where
  ifException : Option String := none
  ifShort : Option String := none
  period : Option PyVal := none
  backwardN : Option Nat := none
  forwardN : Option Nat := none
  number : Option ℚ := none
  weights : Option (Option (List ℚ)) := none
  leverage : Bool := false
  considerPeriod : Bool := false

/-- `fill_up.py:170-175`; the default is 'raise' -/
def FillArgs.onError (a : FillArgs) : Except PyErr OnError :=
  match a.ifException with
  | none => .ok .raise
  | some s =>
    if s = "raise" then .ok .raise else if s = "fill_with_none" then .ok .none else if s = "fill_with_last" then .ok .last
    else .error .exception

/-- `fill_up.py:177-182`; the default is 'try_best' -/
def FillArgs.onShort (a : FillArgs) : Except PyErr OnShort :=
  match a.ifShort with
  | none => .ok .tryBest
  | some s =>
    if s = "raise" then .ok .raise else if s = "fill_with_none" then .ok .none else if s = "try_best" then .ok .tryBest
    else if s = "ignore" then .ok .ignore
    else .error .exception

/-- `fill_up.py:184-189` -/
def FillArgs.periodOf (a : FillArgs) : Except PyErr Nat :=
  match a.period with
  | none => .ok 1
  | some .none => .ok 1
  | some v =>
    match v.asInt? with
    | some i => if i < 0 then .error .valueError else .ok (max i.toNat 1)
    | none => .error .valueError

inductive FillMethod where
  | auto | linear | spline | min | max | median | average | weightedAvg | constant | last | linearSeg | splineSeg
  deriving DecidableEq

/-- the names `fill_up` knows (`fill_up.py:134-144, 191-204`) -/
def FillMethod.ofName (s : String) : Option FillMethod :=
  if s = "auto" then some .auto else if s = "linear" then some .linear else if s = "spline" then some .spline
  else if s = "min" then some .min else if s = "max" then some .max else if s = "median" then some .median
  else if s = "average" then some .average else if s = "weighted_avg" then some .weightedAvg
  else if s = "constant" then some .constant else if s = "last" then some .last
  else if s = "linear_seg" then some .linearSeg else if s = "spline_seg" then some .splineSeg
  else none

/-- The loop of `_get_periodical_values` (`fill_up_methods.py:24-43`). `lev` is `leverage_filled_values`, `best` is
`if_short_of_knowledge == 'try_best'`, `sp` the signed period; the first argument bounds the number of rounds. -/
def walk (arr : List (Option ℚ)) (info : List GapInfo) (lev best forward : Bool) (sp : Int) : Nat → Nat → Int → List (Option ℚ)
  | 0, _, _ => []
  | _ + 1, 0, _ => []
  | fuel + 1, n + 1, i =>
    if 0 ≤ i ∧ i < arr.length then
      match info[i.toNat]? with
      | none => []
      | some g =>
        if lev = false ∧ 0 < g.fwd then                                                     -- 29-35
          let i' := if forward then i + ceilDiv (g.fwd - sp) sp * sp
            else i + ceilDiv ((g.cnt : Int) - g.fwd) sp * sp * -1
          none :: walk arr info lev best forward sp fuel (if best then n + 1 else n) (i' + sp)
        else                                                                                -- 36-39
          let v := arr.getD i.toNat none
          v :: walk arr info lev best forward sp fuel (if best ∧ v = none then n + 1 else n) (i + sp)
    else []

/-- `_get_periodical_values` (`fill_up_methods.py:17-43`); every round moves on by at least one position -/
def periodical (arr : List (Option ℚ)) (info : List GapInfo) (lev best : Bool) (i n period : Nat) (forward : Bool) : List (Option ℚ) :=
  if forward then walk arr info lev best true period (arr.length + 1) n (i + period)
  else (walk arr info lev best false (-(period : Int)) (arr.length + 1) n (i - (period : Int))).reverse

/-- `__get_backward_and_forward_values` (`fill_up_methods.py:46-72`); `none` is `(None, None)` -/
def lookAround (P : FillProc) (lev : Bool) (short : OnShort) (period bn fn i j : Nat) (full : List (Option ℚ)) :
    Except PyErr (Option (List ℚ × List ℚ)) :=
  let both : List (Option ℚ) × List (Option ℚ) :=
    if lev = false ∧ short = .tryBest ∧ period = 1 then                                      -- 49-52
      (((P.values.take j).drop (j - min bn j)).map some, ((P.values.drop j).take fn).map some)
    else
      (periodical full P.info lev (short = .tryBest) i bn period false, periodical full P.info lev (short = .tryBest) i fn period true)
  let b := both.1.filterMap id
  let f := both.2.filterMap id
  if none ∈ both.1 ∨ both.1.length < bn ∨ none ∈ both.2 ∨ both.2.length < fn then            -- 61-73
    match short with
    | .raise => .error .exception
    | .none => .ok none
    | .ignore | .tryBest => if b = [] ∧ f = [] then .ok none else .ok (some (b, f))
  else .ok (some (b, f))

/-- the reductions of `fill_up_methods.py:96-113` -/
inductive Reduction where
  | min | max | median | average
  deriving DecidableEq

/-- `__basic_func` (`fill_up_methods.py:75-93`) after looking around; `ws` are the weights if there are any -/
def reduceWith (op : Reduction) (ws : Option (List ℚ)) (bn fn : Nat) (b f : List ℚ) : Except FillStop ℚ :=
  match op, ws with
  | .average, some w =>                                                                     -- 87-91
    if w.length ≠ bn + fn then .error (.err .exception)
    else
      let cw := (w.drop (bn - b.length)).take (b.length + f.length)
      if cw.sum = 0 then .error (.err .zeroDivision) else .ok (weightedAverage (b ++ f) cw)
  | op, _ =>
    if b ++ f = [] then
      match op with
      | .min | .max => .error (.err .valueError)
      | .median | .average => .error .unmodelled
    else
      match op with
      | .min => .ok (npMin (b ++ f))
      | .max => .ok (npMax (b ++ f))
      | .median => .ok (npMedian (b ++ f))
      | .average => .ok (npMean (b ++ f))

/-- `__basic_func` (`fill_up_methods.py:75-93`) -/
def basicFunc (P : FillProc) (a : FillArgs) (short : OnShort) (period : Nat) (op : Reduction) (ws : Option (List ℚ)) (i j : Nat)
    (full : List (Option ℚ)) : Except FillStop (Option ℚ) :=
  match a.backwardN with
  | none => .error (.err .typeError)
  | some bn =>
    let fn := a.forwardN.getD 0
    let period := if a.considerPeriod = true ∧ 1 < period then period else 1                -- 81-82
    match lookAround P a.leverage short period bn fn i j full with
    | .error e => .error (.err e)
    | .ok none => .ok none
    | .ok (some (b, f)) => (reduceWith op ws bn fn b f).map some

/-- `func_spline_interpolation_seg` (`fill_up_methods.py:139-158`). Fewer than four points and positions outside of the known ones
are a ValueError of `interp1d`, which is turned into an Exception. -/
def splineSeg (spline : SplineOracle) (P : FillProc) (a : FillArgs) (short : OnShort) (i j : Nat) (full : List (Option ℚ)) :
    Except FillStop (List ℚ) :=
  match a.backwardN, a.forwardN with
  | some bn, some fn =>
    match lookAround P a.leverage short 1 bn fn i j full with
    | .error e => .error (.err e)
    | .ok none => .error (.err .typeError)                                                  -- None + None
    | .ok (some (b, f)) =>
      let m := (P.info.getD i ⟨false, 0, 0⟩).cnt
      if b = [] ∨ f = [] ∨ b.length + f.length < 4 then .error (.err .exception)
      else
        match spline (List.range b.length ++ (List.range f.length).map (m + b.length + ·)) (b ++ f) (m + b.length + f.length) with
        | .ok l => .ok ((l.take (l.length - f.length)).drop b.length)
        | .error .valueError => .error (.err .exception)
        | .error e => .error (.err e)
  | _, _ => .error (.err .typeError)

/-- what a step-by-step method returns: a value or a list of values -/
inductive Fill where
  | one (v : Option ℚ)
  | many (l : List ℚ)

/-- the step-by-step methods (`fill_up.py:134-144`); `auto`, `linear` and `spline` are not among them -/
def stepMethod (spline : SplineOracle) (P : FillProc) (a : FillArgs) (short : OnShort) (period : Nat) (m : FillMethod) (i j : Nat)
    (full : List (Option ℚ)) : Except FillStop Fill :=
  match m with
  | .min => (basicFunc P a short period .min none i j full).map .one
  | .max => (basicFunc P a short period .max none i j full).map .one
  | .median => (basicFunc P a short period .median none i j full).map .one
  | .average => (basicFunc P a short period .average (a.weights.getD none) i j full).map .one
  | .weightedAvg =>
    match a.weights with
    | none => .error (.err .typeError)
    | some ws => (basicFunc P a short period .average ws i j full).map .one
  | .constant => .ok (.one a.number)
  | .last =>
    match P.values[j - 1]? with
    | some v => .ok (.one (some v))
    | none => .error (.err .indexError)
  | .linearSeg => .ok (.many (linearSeg (P.values.getD (j - 1) 0) (P.values.getD j 0) (P.info.getD i ⟨false, 0, 0⟩).cnt))
  | .splineSeg => (splineSeg spline P a short i j full).map .many
  | .auto | .linear | .spline => .error (.err .runtimeError)

/-- `__step_by_step_fill_up` (`fill_up.py:91-120`). The first argument bounds the number of rounds; the lists are `indices[j:]` and
`full_values`. If the next observation lies behind `i`, or a method returns an empty list, the loop does not end. -/
def fillLoop (f : Nat → Nat → List (Option ℚ) → Except FillStop Fill) (onErr : OnError) (values : List ℚ) (n : Nat) :
    Nat → Nat → Nat → List Nat → List (Option ℚ) → Except FillStop (List (Option ℚ))
  | 0, i, _, _, full => if n ≤ i then .ok full else .error .hang
  | fuel + 1, i, j, idx, full =>
    if n ≤ i then .ok full
    else
      match idx with
      | [] => .error (.err .indexError)
      | k :: t =>
        if k = i then fillLoop f onErr values n fuel (i + 1) (j + 1) t full
        else if k < i then .error .hang
        else
          match f i j full with
          | .ok (.one v) => fillLoop f onErr values n fuel (i + 1) j (k :: t) (full.set i v)
          | .ok (.many l) =>
            if l = [] then .error .hang
            else fillLoop f onErr values n fuel (i + l.length) j (k :: t) (setSlice full i (l.map some))
          | .error (.err e) =>
            match onErr with
            | .raise => .error (.err e)
            | .none => fillLoop f onErr values n fuel (i + 1) j (k :: t) (full.set i none)
            | .last =>
              match values[j - 1]? with
              | some v => fillLoop f onErr values n fuel (i + 1) j (k :: t) (full.set i (some v))
              | none => .error (.err .indexError)
          | .error s => .error s

/-- the `except` clauses of `__entire_fill_up` and `__auto_fill_up` (`fill_up.py:126-132, 276-282`). With 'fill_with_last' they call
`__step_by_step_fill_up` without its argument `if_exception`, a TypeError. -/
def entireFill (P : FillProc) (onErr : OnError) (r : Except PyErr (List (Option ℚ))) : Except FillStop (List (Option ℚ)) :=
  match r with
  | .ok l => .ok l
  | .error e =>
    match onErr with
    | .raise => .error (.err e)
    | .none => .ok (valuesToFill P.allCount P.indices P.values)
    | .last => .error (.err .typeError)

/-- the values `fill_up` computes once the arguments are checked -/
def fillWith (spline : SplineOracle) (P : FillProc) (m : FillMethod) (a : FillArgs) (onErr : OnError) (short : OnShort) (period : Nat) :
    Except FillStop (List (Option ℚ)) :=
  match m with
  | .auto => entireFill P onErr (P.autoBody spline period)
  | .linear => entireFill P onErr (.ok (P.fillLinear.map some))
  | .spline => entireFill P onErr
      (if P.values.length ≤ 3 then .error .exception else (spline P.indices P.values P.allCount).map (List.map some))
  | m => fillLoop (stepMethod spline P a short period m) onErr P.values P.allCount P.allCount 0 0 P.indices
      (valuesToFill P.allCount P.indices P.values)

/-- `fill_up(method, **kwargs)` (`fill_up.py:146-204`): `none` is `(None, None)`. An unknown method is a NotImplementedError, which is
a RuntimeError. -/
def FillProc.fillUp (spline : SplineOracle) (P : FillProc) (method : String) (a : FillArgs) :
    Except FillStop (Option (List (Option ℚ) × List Bool)) :=
  if P.need = false then .ok none
  else
    match a.onError, a.onShort, a.periodOf with
    | .error e, _, _ => .error (.err e)
    | _, .error e, _ => .error (.err e)
    | _, _, .error e => .error (.err e)
    | .ok onErr, .ok short, .ok period =>
      match FillMethod.ofName method with
      | none => .error (.err .runtimeError)
      | some m => (fillWith spline P m a onErr short period).map fun l => some (l, P.tags)

/-! ### reports on gaps -/

/-- `get_missing_indices` (`fill_up.py:75-76`); without gaps `forward_missing_counts` does not exist, unless the series is empty -/
def FillProc.missingIndices (P : FillProc) : Except PyErr (List Nat) :=
  if P.allCount = 0 then .ok []
  else if P.need = false then .error .attributeError
  else .ok ((List.range P.allCount).filter fun i => decide (0 < (P.info.getD i ⟨false, 0, 0⟩).fwd))

/-- the loop of `get_missing_segments` (`fill_up.py:81-88`); the first argument bounds the number of rounds -/
def segmentLoop (info : List GapInfo) (n : Nat) : Nat → Nat → List (Nat × Nat)
  | 0, _ => []
  | fuel + 1, i =>
    if n ≤ i then []
    else
      let c := (info.getD i ⟨false, 0, 0⟩).fwd
      if 0 < c then (i, c) :: segmentLoop info n fuel (i + c) else segmentLoop info n fuel (i + 1)

/-- `get_missing_segments` (`fill_up.py:78-89`): starts and lengths, paired -/
def FillProc.missingSegments (P : FillProc) : Except PyErr (List (Nat × Nat)) :=
  if P.allCount = 0 then .ok []
  else if P.need = false then .error .attributeError
  else .ok (segmentLoop P.info P.allCount P.allCount 0)

end Verif
