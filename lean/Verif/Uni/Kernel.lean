import Verif.Uni.Num

/-!
# The Cython kernels

Model of `univariate/_anomaly_kernel_cython.pyx`. Conversion of a Python float to a C `float`
(`array.array('f', ...)`) is the parameter `f32`; arithmetic on C floats is exact.
-/

namespace Verif

/-! ## Quick select (lines 13-54) -/

section QuickSelect
variable {α : Type} [LinearOrder α] [Inhabited α]

/-- `data[i], data[j] = data[j], data[i]` -/
def swap (d : List α) (i j : Nat) : List α :=
  (d.set i (d.getD j default)).set j (d.getD i default)

/-- The `while` loop of `partition` (19-27). `rem` is `right_store_index - i + 1`, the number of iterations
left; returns `(data, left_index, right_store_index + 1)`. -/
def partLoop (pv : α) : Nat → List α → Nat → Nat → List α × Nat × Nat
  | 0, d, li, i => (d, li, i)
  | rem + 1, d, li, i =>
    let x := d.getD i default
    if x < pv then partLoop pv rem (swap d li i) (li + 1) (i + 1)
    else if pv < x then partLoop pv rem (swap d (i + rem) i) li i
    else partLoop pv rem d li (i + 1)

/-- `partition(data, left, right, pivot_index)` (13-28). -/
def partition (d : List α) (left right pivot : Nat) : List α × Nat :=
  let r := partLoop (d.getD pivot default) (right + 1 - left) d left left
  (r.1, (r.2.1 + (r.2.2 - 1)) / 2)

/-- `select(data, left, right, n)` (30-43). `rnd` is the stream of values returned by `rand()`, read from
position `c` on. Fuel: the interval shrinks at every call, `right - left + 1` calls suffice. Returns the value,
the permuted array and the next stream position. -/
def select (rnd : Nat → Nat) : Nat → Nat → List α → Nat → Nat → Nat → α × List α × Nat
  | 0, c, d, _, _, _ => (default, d, c)
  | fuel + 1, c, d, left, right, n =>
    if left = right then (d.getD left default, d, c)
    else
      let pivot := rnd c % (right - left + 1) + left
      let r := partition d left right pivot
      let d := r.1
      let p := r.2
      if n = p then (d.getD n default, d, c + 1)
      else if n < p then select rnd fuel (c + 1) d left (p - 1) n
      else select rnd fuel (c + 1) d (p + 1) right n

/-- `quick_select(data, k)` (46-47). -/
def quickSelect (rnd : Nat → Nat) (c : Nat) (d : List α) (k : Nat) : α × List α × Nat :=
  select rnd d.length c d 0 (d.length - 1) (k - 1)

end QuickSelect

/-- `fast_median(table)` (49-54); the second `quick_select` works on the array as permuted by the first. -/
def fastMedian (rnd : Nat → Nat) (c : Nat) (d : List ℚ) : ℚ :=
  if d.length % 2 = 1 then (quickSelect rnd c d (d.length / 2 + 1)).1
  else
    let r1 := quickSelect rnd c d (d.length / 2)
    let r2 := quickSelect rnd r1.2.2 r1.2.1 (d.length / 2 + 1)
    1 / 2 * (r1.1 + r2.1)

/-! ## Medians of sorted data (64-109) -/

/-- Indexing a typed memoryview: negative indices wrap around, out of range is an IndexError. -/
def mvGet (d : List ℚ) (i : Int) : Except PyErr ℚ :=
  let i' := if i < 0 then i + d.length else i
  if i' < 0 then .error .indexError
  else match d[i'.toNat]? with
    | some v => .ok v
    | none => .error .indexError

/-- `sorted_median(data, i, j)` (64-73). -/
def sortedMedian (d : List ℚ) (i j : Nat) : Except PyErr ℚ :=
  let n := j - i
  if n = 0 then .error .exception
  else if n % 2 = 1 then mvGet d (i + n / 2 : Nat)
  else do
    let mid := i + n / 2
    let a ← mvGet d ((mid : Int) - 1)
    let b ← mvGet d mid
    pure ((a + b) / 2)

/-- `i < m and abs(b[j-1]-median) > abs(a[i]-median)` (84); `a`, `b` are the two memoryviews -/
def fmsaSmall (a b : List ℚ) (med : ℚ) (i j : Int) : Except PyErr Bool :=
  if i < a.length then do
    let x ← mvGet b (j - 1)
    let y ← mvGet a i
    pure (decide (|y - med| < |x - med|))
  else pure false

/-- `i > 0 and abs(a[i-1]-median) > abs(b[j]-median)` (86) -/
def fmsaBig (a b : List ℚ) (med : ℚ) (i j : Int) : Except PyErr Bool :=
  if 0 < i then do
    let x ← mvGet a (i - 1)
    let y ← mvGet b j
    pure (decide (|y - med| < |x - med|))
  else pure false

/-- `max_of_left` (89-94) -/
def fmsaMaxLeft (a b : List ℚ) (med : ℚ) (i j : Int) : Except PyErr ℚ :=
  if i = 0 then do
    let y ← mvGet b (j - 1)
    pure |y - med|
  else if j = 0 then do
    let x ← mvGet a (i - 1)
    pure |x - med|
  else do
    let x ← mvGet a (i - 1)
    let y ← mvGet b (j - 1)
    pure (max |x - med| |y - med|)

/-- `min_of_right` (99-104) -/
def fmsaMinRight (a b : List ℚ) (med : ℚ) (i j : Int) : Except PyErr ℚ :=
  if i = a.length then do
    let y ← mvGet b j
    pure |y - med|
  else if j = b.length then do
    let x ← mvGet a i
    pure |x - med|
  else do
    let x ← mvGet a i
    let y ← mvGet b j
    pure (min |x - med| |y - med|)

/-- The loop of `find_median_sorted_arrays` (81-109). `cpdef float` returns 0.0 when the loop ends without
`return`; fuel `len(a) + 2` is never exhausted. -/
def fmsaLoop (a b : List ℚ) (med : ℚ) : Nat → Int → Int → Except PyErr ℚ
  | 0, _, _ => .ok 0
  | fuel + 1, iMin, iMax =>
    if iMin ≤ iMax then
      let m : Int := a.length
      let n : Int := b.length
      let i := (iMin + iMax) / 2
      let j := (m + n + 1) / 2 - i
      do
        let small ← fmsaSmall a b med i j
        if small then fmsaLoop a b med fuel (i + 1) iMax
        else do
          let big ← fmsaBig a b med i j
          if big then fmsaLoop a b med fuel iMin (i - 1)
          else do
            let maxLeft ← fmsaMaxLeft a b med i j
            if (m + n) % 2 = 1 then pure maxLeft
            else do
              let minRight ← fmsaMinRight a b med i j
              pure ((maxLeft + minRight) / 2)
    else .ok 0

/-- `find_median_sorted_arrays(a, b, median)` (75-109). -/
def findMedianSortedArrays (a b : List ℚ) (med : ℚ) : Except PyErr ℚ :=
  fmsaLoop a b med (a.length + 2) 0 a.length

/-! ## ESD test (111-191) -/

/-- `check_anomaly_status` (111-121). -/
def checkAnomalyStatus (med sigma value : ℚ) (threshold : PyFloat) (upper : Bool) : Bool :=
  let de := if upper then value - med else med - value
  let s := if sigma < EPS then EPS else sigma
  threshold.lt (.fin (de / s))

/-- One iteration of the loops of `dynamic_threshold` (140-149) and `generalized_esd_test` (174-183).
`c` is `Gaussian.ppf(3/4)`, `std` is `np.std`. -/
def esdStep (c : ℚ) (std : List ℚ → ℚ) (values : List ℚ) (upper : Bool) (thr : Nat → Except PyErr PyFloat)
    (k : Nat) : Except PyErr Bool := do
  let len := values.length
  let rev := values.reverse
  let med ← sortedMedian values k len
  let h := (len - k) / 2
  let mad ← findMedianSortedArrays ((rev.drop (len - k - h)).take h) (values.drop (k + h)) med
  let v ← mvGet values k
  let t ← thr k
  if checkAnomalyStatus med (mad / c) v t upper then pure true
  else
    let tail := values.drop k
    pure (checkAnomalyStatus (npMean tail) (std tail) v t upper)

/-- The `for k in range(start, max_outliers)` loop (140-155, 174-189); returns `num_anoms + 1`. `last` tells
whether `last_index != -1`. -/
def esdLoop (step : Nat → Except PyErr Bool) (last : Bool) : Nat → Nat → Nat → Except PyErr Nat
  | 0, _, num => .ok num
  | rem + 1, k, num => do
    let a ← step k
    let num := if a then k + 1 else num
    if a && last then pure num
    else esdLoop step last rem (k + 1) num

/-- `generalized_esd_test(sorted_values, sorted_index, max_outliers, critical_values, upper_tail, last_index)`
(160-191). -/
def generalizedEsdTest (f32 : ℚ → ℚ) (c : ℚ) (std : List ℚ → ℚ) (values : List ℚ) (index : List Nat)
    (maxOutliers : Nat) (critical : List PyFloat) (upper : Bool) (lastIndex : Option Nat) :
    Except PyErr (List Nat) := do
  let vs := values.map f32
  let start := lastIndex.getD 0
  let thr := fun k => match critical[k]? with
    | some t => Except.ok t
    | none => .error .indexError
  let num ← esdLoop (esdStep c std vs upper thr) lastIndex.isSome (maxOutliers - start) start 0
  pure (index.take num)

/-- `dynamic_threshold(sorted_values, sorted_index, max_outliers, threshold, upper_tail, last_index)`
(124-157). -/
def dynamicThreshold (f32 : ℚ → ℚ) (c : ℚ) (std : List ℚ → ℚ) (values : List ℚ) (index : List Nat)
    (maxOutliers : Nat) (threshold : PyFloat) (upper : Bool) (lastIndex : Option Nat) :
    Except PyErr (List Nat) := do
  let vs := values.map f32
  let start := lastIndex.getD 0
  let num ← esdLoop (esdStep c std vs upper (fun _ => .ok threshold)) lastIndex.isSome
    (maxOutliers - start) start 0
  pure (index.take num)

/-! ## Generalized cross validation (193-229) -/

/-- values at phase `i`: the entries the loop 217-221 adds to bucket `i` -/
def phase (period : Nat) (i : Nat) (l : List ℚ) : List ℚ :=
  (l.zipIdx.filter fun x => x.2 % period == i).map (·.1)

/-- Bucket accumulators `(sum_y, sum_y2, cycles)` of `gcv`. -/
structure Bucket where
  s : ℚ
  s2 : ℚ
  n : Nat

/-- The accumulation loop (217-221). -/
def gcvLoop (period : Nat) : List ℚ → Nat → Nat → List Bucket → List Bucket
  | [], _, _, bs => bs
  | v :: t, i, idx, bs =>
    let b := bs.getD idx ⟨0, 0, 0⟩
    gcvLoop period t (i + 1) ((i + 1) % period) (bs.set idx ⟨b.s + v, b.s2 + v * v, b.n + 1⟩)

/-- One term of `cv_mse` (225). A bucket with `cycles = 1` divides by zero in the code; the quotient is 0
here, and `gcv` callers are shown never to reach that case. -/
def gcvTerm (b : Bucket) : ℚ :=
  ((b.n : ℚ) / ((b.n : ℚ) - 1)) ^ 2 * (b.s2 - b.s ^ 2 / b.n)

/-- `gcv(gcv_input, period)` (207-229): `(cv_mse, seasons)`. -/
def gcv (data : List ℚ) (period : Nat) : ℚ × List ℚ :=
  let bs := gcvLoop period data 0 0 (List.replicate period ⟨0, 0, 0⟩)
  let mse := (bs.map gcvTerm).sum / data.length
  (if isClose mse 0 then 0 else mse, bs.map fun b => b.s / b.n)

/-- `max_gcv(data, periods)` (193-205): the first period with the least error; `none` is the initial
`cv_mse = inf` with the one-element dummy `np.empty(1)`. -/
def maxGcv (data : List ℚ) (periods : List Nat) : Option (ℚ × List ℚ) :=
  periods.foldl (fun best p =>
    let r := gcv data p
    match best with
    | none => some r
    | some b => if r.1 < b.1 then some r else some b) none

/-! ## Median filter (231-278) -/

/-- `bisect.bisect_right`: `while lo < hi: mid = (lo+hi)//2; if x < a[mid]: hi = mid else: lo = mid+1`.
Fuel `len(a)` suffices. -/
def bisectLoop (l : List ℚ) (x : ℚ) : Nat → Nat → Nat → Nat
  | 0, lo, _ => lo
  | fuel + 1, lo, hi =>
    if lo < hi then
      let mid := (lo + hi) / 2
      if x < l.getD mid 0 then bisectLoop l x fuel lo mid else bisectLoop l x fuel (mid + 1) hi
    else lo

/-- `bisect.bisect_right(l, x)` -/
def bisectRight (l : List ℚ) (x : ℚ) : Nat := bisectLoop l x l.length 0 l.length

/-- insertion into the sorted window (244-248, 259-264): shift right and store -/
def winInsert (w : List ℚ) (x : ℚ) : List ℚ := w.insertIdx (bisectRight w x) x

/-- deletion from the window (253-257, 270-274): shift left from `delete_id = bisect_right(w, x) - 1`.
When `delete_id = -1`, `cur_windows[-1] = cur_windows[0]` writes the last slot of the whole buffer first;
if the window still occupies the whole buffer (`full`) the old first element thereby ends up last. -/
def winDelete (full : Bool) (w : List ℚ) (x : ℚ) : List ℚ :=
  if bisectRight w x = 0 then
    if full then w.tail.dropLast ++ w.take 1 else w.tail
  else w.eraseIdx (bisectRight w x - 1)

/-- `sorted_median(window, 0, len)` on a nonempty window. -/
def winMedian (w : List ℚ) : ℚ := medianSorted w

/-- First loop (242-250): fill the window with `val[0..w_len)`, recording the truncated medians when
`need_two_end`. Returns the window and the answers from position 0 on. -/
def mfHead (half : Nat) (twoEnd : Bool) : List ℚ → Nat → List ℚ → List ℚ → List ℚ × List ℚ
  | [], _, w, ans => (w, ans)
  | x :: t, i, w, ans =>
    let w := winInsert w x
    let ans := if half ≤ i ∧ twoEnd then ans.set (i - half) (winMedian w) else ans
    mfHead half twoEnd t (i + 1) w ans

/-- Middle loop (252-266): `n` iterations from position `i`. -/
def mfMid (half : Nat) (val : List ℚ) : Nat → Nat → List ℚ → List ℚ → List ℚ × List ℚ
  | 0, _, w, ans => (w, ans)
  | n + 1, i, w, ans =>
    let w := winDelete true w (val.getD (i - half - 1) 0)
    let w := winInsert w (val.getD (i + half) 0)
    mfMid half val n (i + 1) w (ans.set i (winMedian w))

/-- Last loop (268-276): the window shrinks. The element to delete is searched with the unrounded
`data[...]` (270), unlike the middle loop. -/
def mfTail (half : Nat) (data : List ℚ) : Nat → Nat → List ℚ → List ℚ → List ℚ
  | 0, _, _, ans => ans
  | n + 1, i, w, ans =>
    let w := winDelete (decide (w.length = half * 2 + 1)) w (data.getD (i - half - 1) 0)
    mfTail half data n (i + 1) w (ans.set i (winMedian w))

/-- `median_filter(data, window, need_two_end)` (231-278). -/
def medianFilter (f32 : ℚ → ℚ) (data : List ℚ) (window : Nat) (twoEnd : Bool) : List ℚ :=
  let half := window / 2
  let wLen := half * 2 + 1
  let n := data.length
  let val := data.map f32
  if n < wLen then val                                                    -- 240-241
  else
    let (w, ans) := mfHead half twoEnd (val.take wLen) 0 [] val           -- 242-250
    let ans := ans.set half (winMedian w)                                 -- 251
    let (w, ans) := mfMid half val (n - half - (half + 1)) (half + 1) w ans   -- 252-266
    if twoEnd then mfTail half data half (n - half) w ans else ans        -- 268-276

/-! ## Bucket despiking (339-350) -/

/-- one phase of `remove_anomaly_in_bucket` (342-349): the replaced values of that phase -/
def despikePhase (f32 : ℚ → ℚ) (rnd : Nat → Nat) (sub : List ℚ) : List ℚ :=
  let med := fastMedian rnd 0 (sub.map f32)
  let mad := 14826 / 10000 * fastMedian rnd 0 ((sub.map fun x => x - med).map f32) + EPS
  sub.map fun x => if (x - med) / mad ≥ 3 then med else x

/-- `remove_anomaly_in_bucket(values, period)` (339-350): position `p` gets the entry of its phase
`p % period` at rank `p / period`. -/
def removeAnomalyInBucket (f32 : ℚ → ℚ) (rnd : Nat → Nat) (values : List ℚ) (period : Nat) : List ℚ :=
  values.zipIdx.map fun x =>
    (despikePhase f32 rnd (phase period (x.2 % period) values)).getD (x.2 / period) x.1

end Verif
