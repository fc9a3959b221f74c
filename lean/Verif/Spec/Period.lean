import Verif.Spec.Kernel

/-!
# Specification: which calendar period a series is given
-/

namespace Verif.Spec

/-- `x` lies at least three standard deviations (plus 3e-8) from the mean of `l` -/
def Spike (sqrt : ℚ → ℚ) (l : List ℚ) (x : ℚ) : Prop := 3 * (sqrt (variance l) + 1 / 10 ^ 8) ≤ |x - mean l|

/-- the entry `u` at position `a` is not a spike -/
def Calm (sqrt : ℚ → ℚ) (l : List ℚ) (a : Nat) (u : ℚ) : Prop := l[a]? = some u ∧ ¬ Spike sqrt l u

/-- the last entry before position `i` that is not a spike -/
def CalmBefore (sqrt : ℚ → ℚ) (l : List ℚ) (i a : Nat) (u : ℚ) : Prop :=
  a < i ∧ Calm sqrt l a u ∧ ∀ c w, Calm sqrt l c w → c < i → c ≤ a

/-- the first entry after position `i` that is not a spike -/
def CalmAfter (sqrt : ℚ → ℚ) (l : List ℚ) (i b : Nat) (v : ℚ) : Prop :=
  i < b ∧ Calm sqrt l b v ∧ ∀ c w, Calm sqrt l c w → i < c → b ≤ c

/-- `l'` is `l` with its spikes replaced: by the straight line between the neighbouring entries that are not spikes, or
by the nearest such entry at either end -/
structure Despiked (sqrt : ℚ → ℚ) (l l' : List ℚ) : Prop where
  len : l'.length = l.length
  keeps : ∀ i x, Calm sqrt l i x → l'[i]? = some x
  line : ∀ (i : Nat) (x : ℚ) (a : Nat) (u : ℚ) (b : Nat) (v : ℚ), l[i]? = some x → Spike sqrt l x →
    CalmBefore sqrt l i a u → CalmAfter sqrt l i b v →
    l'[i]? = some (u + (v - u) * ((i : ℚ) - a) / ((b : ℚ) - a))
  start : ∀ (i : Nat) (x : ℚ) (b : Nat) (v : ℚ), l[i]? = some x → Spike sqrt l x →
    (∀ a u, Calm sqrt l a u → i < a) → CalmAfter sqrt l i b v → l'[i]? = some v
  stop : ∀ (i : Nat) (x : ℚ) (a : Nat) (u : ℚ), l[i]? = some x → Spike sqrt l x →
    CalmBefore sqrt l i a u → (∀ b v, Calm sqrt l b v → b < i) → l'[i]? = some u

/-- `t` is the moving median of `l` over windows of `p` entries, rounded to odd and cut off at the start; at the end
too if the entries are float32 numbers -/
structure MedianTrend (f32 : ℚ → ℚ) (l : List ℚ) (p : Nat) (t : List ℚ) : Prop where
  len : t.length = l.length
  inner : ∀ i, i + p / 2 < l.length → IsMedian (around (p / 2) (l.map f32) i) (t.getD i 0)
  tail : (∀ x ∈ l, f32 x = x) → ∀ i < l.length, IsMedian (around (p / 2) l i) (t.getD i 0)

/-- `l'` is `l` with every entry capped that exceeds the median of its season by three times the scaled median signed
deviation (plus 1e-8) -/
def SeasonCapped (f32 : ℚ → ℚ) (l : List ℚ) (period : Nat) (l' : List ℚ) : Prop :=
  l'.length = l.length ∧ ∀ (p : Nat) (v : ℚ), l[p]? = some v → ∃ med dev,
    IsMedian ((seasonOf l period p).map f32) med ∧
    IsMedian ((seasonOf l period p).map fun x => f32 (x - med)) dev ∧
    l'[p]? = some (if 3 ≤ (v - med) / (14826 / 10000 * dev + 1 / 10 ^ 8) then med else v)

/-- the seasonal means of period `p` explain more than the share `lim` of the variance of `l`, measured by leaving out
one entry at a time -/
def Explains (f32 : ℚ → ℚ) (l : List ℚ) (p : Nat) (lim : ℚ) : Prop :=
  ¬ Near (variance l) 0 ∧ (Near (looMse (l.map f32) p) 0 ∨ lim < 1 - looMse (l.map f32) p / variance l)

/-- share of the variance to be explained by period `p` -/
def share (p : Nat) : ℚ := if p ≤ 24 then 35 / 100 else if p ≤ 168 then 15 / 100 else 10 / 100

/-- share of the variance to be explained by period `p` after removal of the trend -/
def shareDetrended (p : Nat) : ℚ := if p ≤ 24 then 35 / 100 else if p ≤ 168 then 65 / 100 else 70 / 100

/-- `ok` is the outcome of the test of period `p`: the series scaled to [0,1] and without spikes varies, and the period
explains enough of it, or of the series without its trend -/
def Tested (sqrt f32 : ℚ → ℚ) (values : List ℚ) (p : Nat) (ok : Prop) : Prop :=
  ∃ scaled smooth trend rest capped : List ℚ,
    Normalised values scaled ∧ Despiked sqrt scaled smooth ∧ MedianTrend f32 scaled p trend ∧
    Despiked sqrt (List.zipWith (· - ·) scaled trend) rest ∧ SeasonCapped f32 rest p capped ∧
    (ok ↔ Explains f32 smooth p (share p) ∨
      (¬ Near (variance smooth) 0 ∧ Explains f32 capped p (shareDetrended p)))

/-- seconds in a day -/
def day : Nat := 86400

/-- the periods tried for a granularity and an interval: a week, then a day, of hours; a week, a day, two days of
minutes or seconds; seven days; twelve and four weeks; twelve months; a thousand microseconds -/
def guesses (g : Granularity) (interval : Nat) : List Nat :=
  let step := max interval 1
  match g with
  | .none | .yearly => []
  | .monthly => [12]
  | .weekly => [12, 4]
  | .daily => [7]
  | .hourly => [7 * day / (3600 * step), day / (3600 * step)]
  | .minutely => [7 * day / (60 * step), day / (60 * step), 2 * day / (60 * step)]
  | .secondly => [7 * day / step, day / step, 2 * day / step]
  | .microsecond => [1000]

/-- `p` is the first period tried that is at least 4, fits more than twice into `n` points and is accepted -/
def FirstAccepted (gs : List Nat) (n : Nat) (ok : Nat → Prop) (p : Nat) : Prop :=
  ∃ before after, gs = before ++ p :: after ∧ (4 ≤ p ∧ 2 * p < n ∧ ok p) ∧
    ∀ q ∈ before, ¬ (4 ≤ q ∧ 2 * q < n ∧ ok q)

/-- the calendar period of a series, if any: the first period tried, if it fits more than twice and is a multiple of the
first accepted period, else the first accepted period -/
def CalendarPeriod (sqrt f32 : ℚ → ℚ) (values : List ℚ) (g : Granularity) (interval : Nat) (r : Option Nat) : Prop :=
  ∃ ok : Nat → Prop,
    (∀ p, 4 ≤ p → 2 * p < values.length → Tested sqrt f32 values p (ok p)) ∧
    (((∀ p ∈ guesses g interval, ¬ (4 ≤ p ∧ 2 * p < values.length ∧ ok p)) ∧ r = none) ∨
     ∃ p first, FirstAccepted (guesses g interval) values.length ok p ∧ (guesses g interval).head? = some first ∧
      ((2 * first < values.length ∧ p ∣ first ∧ r = some first) ∨
        (¬ (2 * first < values.length ∧ p ∣ first) ∧ r = some p)))

/-- lag `i + 1` is significant: its autocorrelation is at least 0.1 and at least the half width of its confidence
interval, whose upper end is in `conf` -/
def Significant (acf conf : List ℚ) (i : Nat) : Prop :=
  1 / 10 ≤ acf.getD i 0 ∧ conf.getD i 0 - acf.getD i 0 ≤ acf.getD i 0

/-- `seen` lists the significant lags in descending order of autocorrelation, up to the first lag that is not
significant -/
structure Peaks (acf conf : List ℚ) (seen : List Nat) : Prop where
  nodup : seen.Nodup
  inside : ∀ i ∈ seen, i < acf.length
  order : seen.Pairwise fun i j => acf.getD j 0 ≤ acf.getD i 0
  significant : ∀ i ∈ seen, Significant acf conf i
  rest : ∀ i ∈ seen, ∀ j < acf.length, j ∉ seen → acf.getD j 0 ≤ acf.getD i 0
  stop : (∃ j < acf.length, j ∉ seen) → ∃ j < acf.length, j ∉ seen ∧ ¬ Significant acf conf j ∧
    ∀ k < acf.length, k ∉ seen → acf.getD k 0 ≤ acf.getD j 0

/-- the lags considered for `n` points -/
def lagLimit (n : Nat) : Nat := min (n / 3) 5760

/-- `p` is the period of the series `l` without spikes and trend, 0 for none: among the significant lags above 4 and
below the limit the one with the least leave-one-out error, if it explains at least 20% of the variance. `corr` gives
the autocorrelations and the upper ends of their confidence intervals. -/
def Repeats (f32 : ℚ → ℚ) (corr : List ℚ → Nat → List (ℚ × ℚ)) (l : List ℚ) (p : Nat) : Prop :=
  (Near (variance l) 0 ∧ p = 0) ∨
  (¬ Near (variance l) 0 ∧ ∃ seen, Peaks ((corr l (lagLimit l.length)).map (·.1)) ((corr l (lagLimit l.length)).map (·.2)) seen ∧
    (((∀ i ∈ seen, ¬ (4 < i + 1 ∧ i + 1 < lagLimit l.length)) ∧ p = 0) ∨
     ∃ i ∈ seen, 4 < i + 1 ∧ i + 1 < lagLimit l.length ∧
      (∀ j ∈ seen, 4 < j + 1 → j + 1 < lagLimit l.length →
        Near (looMse (l.map f32) (i + 1)) 0 ∨ looMse (l.map f32) (i + 1) ≤ looMse (l.map f32) (j + 1)) ∧
      (((Near (looMse (l.map f32) (i + 1)) 0 ∨ 20 / 100 ≤ 1 - looMse (l.map f32) (i + 1) / variance l) ∧ p = i + 1) ∨
       (¬ (Near (looMse (l.map f32) (i + 1)) 0 ∨ 20 / 100 ≤ 1 - looMse (l.map f32) (i + 1) / variance l) ∧ p = 0))))

/-- `p` is the period of the series `l`, 0 for none: fewer than 12 points have none, otherwise that of the series
without spikes and trend -/
def BasePeriod (sqrt f32 : ℚ → ℚ) (trend : List ℚ → List ℚ → Prop) (corr : List ℚ → Nat → List (ℚ × ℚ)) (l : List ℚ)
    (p : Nat) : Prop :=
  (l.length < 12 ∧ p = 0) ∨
  (12 ≤ l.length ∧ ∃ smooth t : List ℚ, Despiked sqrt l smooth ∧ trend smooth t ∧ t.length = l.length ∧
    Repeats f32 corr (List.zipWith (· - ·) smooth t) p)

/-- `l'` holds every `p`-th entry of `l` from the first -/
def EveryNth (p : Nat) (l l' : List ℚ) : Prop := ∀ k, l'[k]? = l[k * p]?

/-- `q` is the product of the periods of `l`, of every so-many-th entry of `l`, and so on until there is no period -/
inductive Composed (base : List ℚ → Nat → Prop) : List ℚ → Nat → Prop
  | stop {l : List ℚ} : base l 0 → Composed base l 1
  | step {l l' : List ℚ} {p q : Nat} : base l p → 0 < p → EveryNth p l l' → Composed base l' q → Composed base l (p * q)

/-- the result of the spectrum detector: 0 if the series scaled to [0,1] has no period, else the composed period -/
def SpectrumPeriod (base : List ℚ → Nat → Prop) (values : List ℚ) (r : Nat) : Prop :=
  ∃ scaled, Normalised values scaled ∧
    ((base scaled 0 ∧ r = 0) ∨
      ∃ p l' q, 0 < p ∧ base scaled p ∧ EveryNth p scaled l' ∧ Composed base l' q ∧ r = p * q)

/-- the period of a series for which none is requested: the calendar period, else that of the spectrum detector -/
def DetectedPeriod (sqrt f32 : ℚ → ℚ) (trend : List ℚ → List ℚ → Prop) (corr : List ℚ → Nat → List (ℚ × ℚ))
    (values : List ℚ) (g : Granularity) (interval p : Nat) : Prop :=
  CalendarPeriod sqrt f32 values g interval (some p) ∨
  (CalendarPeriod sqrt f32 values g interval none ∧ SpectrumPeriod (BasePeriod sqrt f32 trend corr) values p)

end Verif.Spec
