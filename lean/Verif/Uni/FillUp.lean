import Verif.Uni.Num

/-!
# Gap filling

Model of `univariate/filling_up/fill_up.py` (class `FillingUpProcess`) and
`univariate/filling_up/fill_up_methods.py`, restricted to the fill methods that the public API reaches:
`last`, `constant`, `linear`, `auto` (and the `weighted_avg` pass inside `auto`).
-/

namespace Verif

/-- `DEFAULT_MAXIMUM_FILLUP_LENGTH = 8640 * 2` (`util/fields.py:32`). -/
def maxFillUpLength : Nat := 8640 * 2

/-- Per grid position: `missing_tags[i]`, `forward_missing_counts[i]`, `missing_counts[i]`. -/
structure GapInfo where
  tag : Bool
  fwd : Nat
  cnt : Nat
  deriving DecidableEq, Repr

/-- The loop `fill_up.py:56-67`: `i` runs over the grid, the list holds `indices[j:]`, `c` is
`cnt_missing`. (`indices[j]` with an exhausted list would be an IndexError; it cannot happen because the
last index is the last grid position.) -/
def gapLoop : Nat → Nat → List Nat → Nat → List GapInfo
  | 0, _, _, _ => []
  | _ + 1, _, [], _ => []
  | n + 1, i, k :: t, c =>
    if k = i then ⟨false, 0, 0⟩ :: gapLoop n (i + 1) t 0
    else
      let c' := if c = 0 then k - i else c
      ⟨true, k - i, c'⟩ :: gapLoop n (i + 1) (k :: t) c'

/-- An instance of `FillingUpProcess` after `__init__`. -/
structure FillProc where
  indices : List Nat
  values : List ℚ
  allCount : Nat
  missing : Nat
  need : Bool
  info : List GapInfo

/-- `missing_ratio` (`fill_up.py:22, 47`). -/
def FillProc.missingRatio (P : FillProc) : ℚ := (P.missing : ℚ) / P.allCount

/-- The order check `fill_up.py:35-42`; returns `(missing_found, all_missing_count)`. -/
def orderLoop : Int → List Int → Except PyErr (Bool × Int)
  | _, [] => .ok (false, 0)
  | prev, k :: t =>
    if k ≤ prev then .error .valueError
    else
      match orderLoop k t with
      | .error e => .error e
      | .ok (found, m) => .ok (decide (prev + 1 < k) || found, (k - prev - 1) + m)

/-- `FillingUpProcess.__init__` (`fill_up.py:11-67`). The checks for `None` values do not apply to
float lists. -/
def FillProc.init (indices : List Int) (values : List ℚ) : Except PyErr FillProc :=
  match indices with
  | [] => .ok ⟨[], values, 0, 0, false, []⟩                          -- 18-23
  | k0 :: t =>
    if indices.length ≠ values.length then .error .valueError        -- 24-25
    else
      match orderLoop k0 t with                                      -- 35-42
      | .error e => .error e
      | .ok (found, m) =>
        if k0 ≠ 0 then .error .valueError                            -- 43-44
        else
          let all := (indices.getLast?.getD 0).toNat + 1             -- 45
          let idx := indices.map Int.toNat
          let need := found && decide (all ≤ maxFillUpLength)        -- 48-49
          .ok ⟨idx, values, all, m.toNat, need,
            if need then gapLoop all 0 idx 0 else []⟩                -- 50-67

/-- `missing_tags` -/
def FillProc.tags (P : FillProc) : List Bool := P.info.map (·.tag)

/-- `__get_values_to_fill` (`fill_up.py:69-73`). -/
def valuesToFill (n : Nat) (indices : List Nat) (values : List ℚ) : List (Option ℚ) :=
  (indices.zip values).foldl (fun full (kv : Nat × ℚ) => full.set kv.1 (some kv.2)) (List.replicate n none)

/-- What `__step_by_step_fill_up` does when the method raises (`fill_up.py:112-119`). -/
inductive IfException where
  | raise | fillWithNone
  deriving DecidableEq

/-- `__step_by_step_fill_up` (`fill_up.py:91-120`) for methods returning a scalar. `f i j full` is the
method; the list argument is `indices[j:]`. -/
def stepLoop (f : Nat → Nat → List (Option ℚ) → Except PyErr (Option ℚ)) (onErr : IfException) :
    Nat → Nat → Nat → List Nat → List (Option ℚ) → Except PyErr (List (Option ℚ))
  | 0, _, _, _, full => .ok full
  | _ + 1, _, _, [], full => .ok full
  | n + 1, i, j, k :: t, full =>
    if k = i then stepLoop f onErr n (i + 1) (j + 1) t full
    else
      match f i j full with
      | .ok v => stepLoop f onErr n (i + 1) j (k :: t) (full.set i v)
      | .error e =>
        match onErr with
        | .raise => .error e
        | .fillWithNone => stepLoop f onErr n (i + 1) j (k :: t) (full.set i none)

/-- `func_last` (`fill_up_methods.py:13-14`). -/
def funcLast (values : List ℚ) (j : Nat) : Except PyErr (Option ℚ) :=
  match values[j - 1]? with
  | some v => .ok (some v)
  | none => .error .indexError

/-- `fill_up(method='last')` (`fill_up.py:146-201`). -/
def FillProc.fillLast (P : FillProc) : Except PyErr (List (Option ℚ)) :=
  stepLoop (fun _ j _ => funcLast P.values j) .raise P.allCount 0 0 P.indices
    (valuesToFill P.allCount P.indices P.values)

/-- `fill_up(method='constant', number=c)`: `func_constant` returns the number as given, possibly `None`
(`fill_up_methods.py:9-10`). -/
def FillProc.fillConstant (P : FillProc) (c : Option ℚ) : Except PyErr (List (Option ℚ)) :=
  stepLoop (fun _ _ _ => .ok c) .raise P.allCount 0 0 P.indices
    (valuesToFill P.allCount P.indices P.values)

/-- knots of an interpolation -/
def knots (indices : List Nat) (values : List ℚ) : List (ℚ × ℚ) :=
  (indices.map fun i => ((i : Nat) : ℚ)).zip values

/-- `func_linear_interpolation_entire` (`fill_up_methods.py:127-130`), `interp1d(...)(full_indices)`. -/
def linearEntire (indices : List Nat) (values : List ℚ) (n : Nat) : List ℚ :=
  (List.range n).map fun (i : Nat) => npInterp (knots indices values) (i : ℚ)

/-- `fill_up(method='linear')`. -/
def FillProc.fillLinear (P : FillProc) : List ℚ := linearEntire P.indices P.values P.allCount

/-! ### `auto` -/

/-- `math.ceil(a / b)` on integers (`np.ceil` in `fill_up_methods.py:33,35`). -/
def ceilDiv (a b : Int) : Int := ((a : ℚ) / b).ceil

/-- The loop of `_get_periodical_values` (`fill_up_methods.py:17-43`) for
`leverage_filled_values=False`, `if_short_of_knowledge='ignore'`; `d` is `direction` and `sp` the signed
period `period*direction`; the position `i` is already advanced. -/
def periodicalLoop (arr : List (Option ℚ)) (info : List GapInfo) (forward : Bool) (sp : Int) :
    Nat → Int → List (Option ℚ)
  | 0, _ => []
  | n + 1, i =>
    if 0 ≤ i ∧ i < arr.length then
      match info[i.toNat]? with
      | none => []
      | some g =>
        if 0 < g.fwd then
          let i' := if forward then i + ceilDiv (g.fwd - sp) sp * sp            -- 32-33
            else i + ceilDiv ((g.cnt : Int) - g.fwd) sp * sp * -1               -- 34-35
          none :: periodicalLoop arr info forward sp n (i' + sp)
        else (arr.getD i.toNat none) :: periodicalLoop arr info forward sp n (i + sp)
    else []

/-- `_get_periodical_values` (`fill_up_methods.py:17-43`). -/
def periodicalValues (arr : List (Option ℚ)) (info : List GapInfo) (i n period : Nat) (forward : Bool) :
    List (Option ℚ) :=
  if forward then periodicalLoop arr info true period n (i + period)
  else (periodicalLoop arr info false (-(period : Int)) n (i - (period : Int))).reverse

/-- `np.average(values, weights=w)` -/
def weightedAverage (vs ws : List ℚ) : ℚ := (List.zipWith (· * ·) vs ws).sum / ws.sum

/-- the weights of `fill_up.py:260` -/
def autoWeights : List ℚ := [1/10, 3/10, 6/10, 6/10, 3/10, 1/10]

/-- `func_weighted_avg` as called from `__auto_fill_up` (`fill_up.py:256-264`, `fill_up_methods.py:46-102`):
`backward_n = forward_n = 3`, `consider_period=True`, `if_short_of_knowledge='ignore'`, `period > 1`. -/
def funcWeightedAvg (info : List GapInfo) (period : Nat) (i : Nat) (full : List (Option ℚ)) :
    Except PyErr (Option ℚ) :=
  let back := periodicalValues full info i 3 period false
  let fwd := periodicalValues full info i 3 period true
  -- 61-72: missing entries are dropped (nothing to drop when all six are present)
  let b := back.filterMap id
  let f := fwd.filterMap id
  if b.length = 0 ∧ f.length = 0 then .ok none                        -- 68-69
  else
    let w := (autoWeights.drop (3 - b.length)).take (b.length + f.length)   -- 90
    .ok (some (weightedAverage (b ++ f) w))                           -- 91

/-- `func_linear_interpolation_seg` (`fill_up_methods.py:121-124`): the interior points of the segment
of length `c` between `a` and `b`. -/
def linearSeg (a b : ℚ) (c : Nat) : List ℚ :=
  (List.range c).map fun k => a + (b - a) * ((k + 1 : Nat) : ℚ) / ((c + 1 : Nat) : ℚ)

/-- overwrite `full[i : i+len(res)] = res` -/
def setSlice {α} (full : List α) (i : Nat) (res : List α) : List α :=
  full.take i ++ res ++ full.drop (i + res.length)

/-- ascending or descending: `l == sorted(l) or l == sorted(l, reverse=True)` -/
def monotoneList (l : List ℚ) : Bool :=
  decide (l.Pairwise (· ≤ ·)) || decide (l.Pairwise (· ≥ ·))

/-- One missing segment `[i, i+c)` of `__scatter_distribution_fill_up` (`fill_up.py:216-242`); `j` is the
rank of the next observed point, `lo`/`hi` the observed minimum and maximum. -/
def scatterSegment (values : List ℚ) (info : List GapInfo) (period : Nat) (lo hi : ℚ) (i j c : Nat)
    (full : List (Option ℚ)) : List (Option ℚ) :=
  if 6 < c ∨ (1 < period ∧ (period : ℚ) / 4 < c) then                 -- 217-219
    setSlice full i (List.replicate c none)
  else
    let n := full.length
    let cand : List Int := [(i : Int) - 2, (i : Int) - 1, (i : Int) + c, (i : Int) + c + 1]
    let sur : List ℚ := cand.filterMap fun (x : Int) =>                       -- 222-225
      if 0 < x ∧ x < n then
        match info[x.toNat]? with
        | some g => if g.tag then none else full.getD x.toNat none
        | none => none
      else none
    let seg : List ℚ := (List.range c).filterMap fun k => full.getD (i + k) none
    let seg :=
      if 2 < sur.length ∧ monotoneList sur then                       -- 226-236
        let a := sur.headD 0
        let b := sur.getLastD 0
        if seg.any (fun v => decide (v < min a b) || decide (max a b < v)) then
          linearSeg (values.getD (j - 1) 0) (values.getD j 0) c
        else seg
      else seg
    setSlice full i (seg.map fun v => some (min (max v lo) hi))       -- 239-240

/-- The loop of `__scatter_distribution_fill_up` (`fill_up.py:210-242`), by recursion on `indices[j:]`. -/
def scatterLoop (values : List ℚ) (info : List GapInfo) (period : Nat) (lo hi : ℚ) :
    Nat → Nat → List Nat → List (Option ℚ) → List (Option ℚ)
  | _, _, [], full => full
  | i, j, k :: t, full =>
    let full := if k = i then full else scatterSegment values info period lo hi i j (k - i) full
    scatterLoop values info period lo hi (k + 1) (j + 1) t full

/-- indices and values of the positions that hold a value (`fill_up.py:252-253, 263-264`) -/
def presentFrom : Nat → List (Option ℚ) → List (Nat × ℚ)
  | _, [] => []
  | i, some v :: t => (i, v) :: presentFrom (i + 1) t
  | i, none :: t => presentFrom (i + 1) t

/-- Oracle type of `interp1d(indices, values, kind='cubic')(range(n))`. -/
abbrev SplineOracle := List Nat → List ℚ → Nat → Except PyErr (List ℚ)

/-- The body of the `try` in `__auto_fill_up` (`fill_up.py:247-274`). -/
def FillProc.autoBody (spline : SplineOracle) (P : FillProc) (period : Nat) :
    Except PyErr (List (Option ℚ)) :=
  if 1 < period then do
    -- func_spline_interpolation_entire, fill_up_methods.py:161-166
    if P.values.length ≤ 3 then throw .exception
    let sp ← spline P.indices P.values P.allCount
    let filled := scatterLoop P.values P.info period (npMin P.values) (npMax P.values) 0 0 P.indices
      (sp.map some)
    let pr := presentFrom 0 filled
    let Q ← FillProc.init (pr.map fun x => (x.1 : Int)) (pr.map (·.2))            -- 256
    let pr2 ←
      if Q.need then do                                                          -- 257-264
        let filled2 ← stepLoop (fun i _ full => funcWeightedAvg Q.info period i full) .fillWithNone
          Q.allCount 0 0 Q.indices (valuesToFill Q.allCount Q.indices Q.values)
        pure (presentFrom 0 filled2)
      else pure pr
    let R ← FillProc.init (pr2.map fun x => (x.1 : Int)) (pr2.map (·.2))           -- 267
    if R.need then pure (R.fillLinear.map some)                                   -- 268-269
    else pure (pr2.map fun x => some x.2)
  else
    .ok (P.fillLinear.map some)                                                   -- 271-272

/-- `fill_up(method='auto', period=period, if_exception='fill_with_last')`. If the body raises, the
fallback `self.__step_by_step_fill_up(func_last, **kwargs)` is called without its required argument
`if_exception`, which is a TypeError (`fill_up.py:276-282`). -/
def FillProc.fillAuto (spline : SplineOracle) (P : FillProc) (period : Nat) :
    Except PyErr (List (Option ℚ)) :=
  match P.autoBody spline (max period 1) with                                     -- 184-189
  | .ok l => .ok l
  | .error _ => .error .typeError

/-- `fill_up_on_demand` (`model/series_compete_processor.py:9-18`): `none` is `(None, None)`.
The second component is `missing_tags`. `fixed` is the fill constant, `None` unless set. -/
def fillUpOnDemand (spline : SplineOracle) (P : FillProc) (mode : FillUpMode) (fixed : Option ℚ)
    (period : Nat) : Except PyErr (Option (List (Option ℚ) × List Bool)) :=
  match mode with
  | .previous | .use_last =>
    if P.need then (P.fillLast).map fun l => some (l, P.tags) else .ok none
  | .fixed =>
    if P.need then (P.fillConstant fixed).map fun l => some (l, P.tags) else .ok none
  | .linear =>
    if P.need then .ok (some (P.fillLinear.map some, P.tags)) else .ok none
  | .auto =>
    if P.need then (P.fillAuto spline period).map fun l => some (l, P.tags) else .ok none
  | .no | .zero | .notFill => .ok none

end Verif
