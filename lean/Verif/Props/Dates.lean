import Verif.Spec.Calendar
import Verif.Uni.Double
import Mathlib.Tactic.Linarith
import Mathlib.Tactic.Ring
import Mathlib.Tactic.FieldSimp
import Mathlib.Tactic.IntervalCases

/-!
# Calendar differences and the time grid (C05, C06)
-/

namespace Verif

open Spec

theorem daysInMonth_eq {y m : Int} (h1 : 1 ≤ m) (h12 : m ≤ 12) : daysInMonth y m = lastDay y m := by
  have hl : isLeap y = true ↔ ((4 ∣ y ∧ ¬ 100 ∣ y) ∨ 400 ∣ y) := by
    unfold isLeap
    simp only [Bool.and_eq_true, Bool.or_eq_true, decide_eq_true_eq]
    omega
  unfold daysInMonth lastDay
  interval_cases m <;> simp [monthLengths]
  by_cases h : isLeap y = true
  · rw [if_pos h, if_pos (hl.1 h)]
  · rw [if_neg h, if_neg (fun h' => h (hl.2 h'))]

/-- The calendar difference for `b` not after `a`. -/
theorem getDateDifference_of_le {a b : Stamp} (ha : Valid a) (hb : Valid b) (hab : ¬ a.ns < b.ns)
    (hle : DateLE b a) :
    let d := getDateDifference a b
    0 ≤ d.years ∧ 0 ≤ d.months ∧ d.months ≤ 11 ∧ 0 ≤ d.days ∧ d.days ≤ 30 ∧
    (d.days = 0 ↔ DayAligned a b) ∧
    (d.days = 0 → d.years * 12 + d.months = monthNo a - monthNo b) ∧
    (d.days ≠ 0 → b.day ≤ a.day → d.years * 12 + d.months = monthNo a - monthNo b ∧ d.days = a.day - b.day) ∧
    (d.days ≠ 0 → a.day < b.day → d.years * 12 + d.months = monthNo a - monthNo b - 1 ∧
      d.days = lastDay b.year b.month - b.day + a.day) := by
  obtain ⟨ha1, ha2, ha3, ha4⟩ := ha
  obtain ⟨hb1, hb2, hb3, hb4⟩ := hb
  have ea := daysInMonth_eq (y := a.year) ha1 ha2
  have eb := daysInMonth_eq (y := b.year) hb1 hb2
  have la : lastDay a.year a.month ≤ 31 := by
    rw [← ea]; unfold daysInMonth; repeat' split
    all_goals omega
  have lb : lastDay b.year b.month ≤ 31 := by
    rw [← eb]; unfold daysInMonth; repeat' split
    all_goals omega
  unfold DateLE monthNo at hle
  unfold getDateDifference DayAligned monthNo
  simp only [decide_eq_false hab, ea, eb, Bool.false_eq_true, if_false]
  generalize hla : lastDay a.year a.month = A at *
  generalize hlb : lastDay b.year b.month = B at *
  have hAB : a.year = b.year → a.month = b.month → A = B := by
    intro h1 h2; rw [← hla, ← hlb, h1, h2]
  by_cases c1 : a.year = b.year ∧ a.month = b.month
  · have := hAB c1.1 c1.2
    simp only [c1, and_self, if_true]
    split <;> (simp only; omega)
  · simp only [c1, if_false]
    by_cases c2 : a.day = b.day ∨ (a.day = A ∧ b.day = B) ∨
        (A ≠ B ∧ ((a.day = A ∧ b.day > a.day) ∨ (b.day = B ∧ a.day > b.day)))
    · simp only [c2, if_true]
      split <;> (simp only; omega)
    · simp only [c2, if_false]
      by_cases c3 : a.day > b.day
      · simp only [c3, if_true]
        split <;> (simp only; omega)
      · simp only [c3, if_false]
        split <;> (simp only; omega)

theorem getDateDifference_swap {a b : Stamp} (h : a.ns < b.ns) :
    getDateDifference a b =
      ⟨-(getDateDifference b a).years, -(getDateDifference b a).months, -(getDateDifference b a).days⟩ := by
  have h' : ¬ b.ns < a.ns := by omega
  unfold getDateDifference
  simp only [h, h', decide_true, decide_false, if_true, Bool.false_eq_true, if_false]
  simp

/-- **C06** (calendar difference). For valid dates read in one time zone: swapping the arguments negates the
result; all components have the sign of the order; months lie in -11..11; `days` is 0 exactly when the dates
are aligned, and then `12*years+months` is the calendar month distance; otherwise it is that distance, or one
less when the day of the later date is the smaller one. -/
theorem C06_calendar_difference {a b : Stamp} (ha : Valid a) (hb : Valid b) (hc : Coherent a b)
    (hinst : a.ns = b.ns → a = b) :
    let d := getDateDifference a b
    getDateDifference b a = ⟨-d.years, -d.months, -d.days⟩ ∧
    -11 ≤ d.months ∧ d.months ≤ 11 ∧
    (b.ns ≤ a.ns → 0 ≤ d.years ∧ 0 ≤ d.months ∧ 0 ≤ d.days) ∧
    (d.days = 0 ↔ DayAligned a b) ∧
    (d.days = 0 → d.years * 12 + d.months = monthNo a - monthNo b) ∧
    (b.ns ≤ a.ns → d.days ≠ 0 → b.day ≤ a.day →
      d.years * 12 + d.months = monthNo a - monthNo b ∧ d.days = a.day - b.day) ∧
    (b.ns ≤ a.ns → d.days ≠ 0 → a.day < b.day →
      d.years * 12 + d.months = monthNo a - monthNo b - 1 ∧
      d.days = lastDay b.year b.month - b.day + a.day) := by
  have sym : DayAligned a b ↔ DayAligned b a := by
    unfold DayAligned; constructor <;> (intro h; omega)
  rcases lt_trichotomy a.ns b.ns with h | h | h
  · have key := getDateDifference_of_le hb ha (by omega) (hc.1 (by omega))
    have sw := getDateDifference_swap h
    simp only at key ⊢
    rw [sw]
    obtain ⟨k1, k2, k3, k4, k5, k6, k7, k8, k9⟩ := key
    refine ⟨by simp, by simp; omega, by simp; omega, fun hh => absurd hh (by omega), ?_, ?_, ?_, ?_⟩
    · simp only [neg_eq_zero]; rw [sym]; exact k6
    · intro hz
      have := k7 (by simpa using hz)
      simp only; omega
    · intro hh; omega
    · intro hh; omega
  · have e := hinst h
    subst e
    have key := getDateDifference_of_le ha ha (by omega) (hc.1 (by omega))
    simp only at key ⊢
    obtain ⟨k1, k2, k3, k4, k5, k6, k7, k8, k9⟩ := key
    have hd : (getDateDifference a a).days = 0 := k6.2 (by unfold DayAligned; have := ha.2.2.2; omega)
    have h7 := k7 hd
    refine ⟨?_, by omega, by omega, fun _ => ⟨k1, k2, k4⟩, k6, k7, fun _ => k8, fun _ => k9⟩
    rcases hdd : getDateDifference a a with ⟨y, m, dd⟩
    rw [hdd] at k1 k2 hd h7
    simp only at k1 k2 hd h7 ⊢
    congr 1 <;> omega
  · have key := getDateDifference_of_le ha hb (by omega) (hc.2 (by omega))
    have sw := getDateDifference_swap h
    simp only at key ⊢
    obtain ⟨k1, k2, k3, k4, k5, k6, k7, k8, k9⟩ := key
    exact ⟨sw, by omega, by omega, fun _ => ⟨k1, k2, k4⟩, k6, k7, fun _ => k8, fun _ => k9⟩

/-- non-vacuity: January 31st and the leap day -/
example :
    let a : Stamp := ⟨1000, 2024, 2, 29⟩
    let b : Stamp := ⟨0, 2024, 1, 31⟩
    Valid a ∧ Valid b ∧ Coherent a b ∧ (a.ns = b.ns → a = b) ∧ getDateDifference a b = ⟨0, 1, 0⟩ := by
  refine ⟨?_, ?_, ?_, ?_, by decide⟩
  · refine ⟨by decide, by decide, by decide, by decide⟩
  · refine ⟨by decide, by decide, by decide, by decide⟩
  · constructor
    · intro h; simp at h
    · intro _; left; decide
  · intro h; simp at h

/-! ### C05: positions -/

theorem intLoop_ok {l : List ℚ} {i : Nat} {idx : List Int} (h : intLoop l i = .ok idx) :
    l = idx.map fun k : Int => (k : ℚ) := by
  induction l generalizing i idx with
  | nil => simp [intLoop] at h; subst h; rfl
  | cons x t ih =>
    rw [intLoop] at h
    split at h
    · rename_i hx
      split at h
      · rename_i l' hl
        simp only [IdxResult.ok.injEq] at h
        subst h
        rw [ih hl]
        simp only [List.map_cons, List.cons.injEq, and_true]
        exact (Rat.den_eq_one_iff x).1 hx |>.symm
      · cases h
    · cases h

theorem intLoop_invalid {l : List ℚ} {i j : Nat} (h : intLoop l i = .invalid j) :
    ∃ k, j = i + k ∧ k < l.length ∧ (∀ z : Int, l.getD k 0 ≠ (z : ℚ)) ∧
      ∀ m < k, ∃ z : Int, l.getD m 0 = (z : ℚ) := by
  induction l generalizing i with
  | nil => simp [intLoop] at h
  | cons x t ih =>
    rw [intLoop] at h
    split at h
    · rename_i hx
      split at h
      · cases h
      · rename_i j' hj
        simp only [IdxResult.invalid.injEq] at h
        subst h
        obtain ⟨k, hk, hk2, hk3, hk4⟩ := ih hj
        refine ⟨k + 1, by omega, by simp; omega, by simpa using hk3, ?_⟩
        intro m hm
        cases m with
        | zero => exact ⟨x.num, by simpa using ((Rat.den_eq_one_iff x).1 hx).symm⟩
        | succ m => simpa using hk4 m (by omega)
    · rename_i hx
      simp only [IdxResult.invalid.injEq] at h
      subst h
      refine ⟨0, by omega, by simp, ?_, by omega⟩
      intro z hz
      apply hx
      simp only [List.getD_cons_zero] at hz
      rw [hz]; simp

theorem firstBad_some {bad : DateDifference → Bool} {l : List DateDifference} {i j : Nat}
    (h : firstBad bad l i = some j) :
    ∃ k, j = i + k ∧ ∃ hk : k < l.length, bad l[k] = true ∧ ∀ m (hm : m < k), bad (l[m]'(by omega)) = false := by
  induction l generalizing i with
  | nil => simp [firstBad] at h
  | cons d t ih =>
    rw [firstBad] at h
    split at h
    · rename_i hb
      simp only [Option.some.injEq] at h
      exact ⟨0, by omega, by simp, by simpa using hb, by omega⟩
    · rename_i hb
      obtain ⟨k, hk, hk1, hk2, hk3⟩ := ih h
      refine ⟨k + 1, by omega, by simp; omega, by simpa using hk2, ?_⟩
      intro m hm
      cases m with
      | zero => simpa using hb
      | succ m => simpa using hk3 m (by omega)

theorem firstBad_none {bad : DateDifference → Bool} {l : List DateDifference} {i : Nat}
    (h : firstBad bad l i = none) : ∀ d ∈ l, bad d = false := by
  induction l generalizing i with
  | nil => simp
  | cons d t ih =>
    rw [firstBad] at h
    split at h
    · cases h
    · rename_i hb
      intro x hx
      rcases List.mem_cons.1 hx with rfl | hx
      · simpa using hb
      · exact ih h x hx

/-- the effective interval -/
def effInterval (ci : Option Int) : Int := max (ci.getD 1) 1

theorem effInterval_pos (ci : Option Int) : 0 < effInterval ci := by unfold effInterval; omega

/-- stamps whose civil dates exist and follow the instants -/
def GoodStamps (ts : List Stamp) : Prop :=
  (∀ t ∈ ts, Valid t) ∧ ∀ s ∈ ts.head?, ∀ t ∈ ts, s.ns ≤ t.ns ∧ DateLE s t

theorem onGrid_fixed {g : Granularity} {sec : Int} (hs : stepSeconds g = some sec) (ci : Int) (s t : Stamp)
    (k : Int) : OnGrid g ci s t k ↔ t.ns - s.ns = k * (sec * ci * 1000000000) := by
  cases g <;> simp [stepSeconds] at hs <;> subst hs <;> simp [OnGrid, stepSeconds]

theorem stepSeconds_eq (g : Granularity) : secondsOf g = stepSeconds g := by cases g <;> rfl

theorem stepSeconds_pos {g : Granularity} {sec : Int} (h : stepSeconds g = some sec) : 0 < sec := by
  cases g <;> simp [stepSeconds] at h <;> omega

/-- the fixed-length branch of the code -/
theorem getIndices_fixed {g : Granularity} {sec : Int} (hs : stepSeconds g = some sec) (ci : Option Int)
    (s : Stamp) (ts : List Stamp) :
    getIndices g ci (s :: ts) = .ok (intLoop ((s :: ts).map fun t =>
      roundSigned (roundSigned (timestampFloat t.ns - timestampFloat s.ns) /
        roundSigned ((sec * effInterval ci : Int) : ℚ))) 0) := by
  cases g <;> simp [stepSeconds] at hs <;> subst hs <;> rfl

/-- the position of a whole second is whole only if it is on the grid -/
theorem position_whole {s t : Stamp} (hs : WholeSecond s) (ht : WholeSecond t) {d k : Int} (hd : 0 < d) :
    roundSigned (roundSigned (timestampFloat t.ns - timestampFloat s.ns) / roundSigned (d : ℚ)) = k ↔
      t.ns - s.ns = k * (d * 1000000000) := by
  obtain ⟨hs1, a, ha⟩ := hs
  obtain ⟨ht1, b, hb⟩ := ht
  rw [mul_comm] at ha hb
  rw [ha] at hs1
  rw [hb] at ht1
  rw [ha, hb]
  have hab : |b - a| < 2 ^ 40 := by rw [abs_lt] at *; omega
  rw [timestampFloat_second hs1, timestampFloat_second ht1, show (b : ℚ) - a = ((b - a : Int) : ℚ) by push_cast; rfl,
    roundSigned_int (lt_trans hab (by norm_num))]
  have e : b - a = k * d ↔ b * 1000000000 - a * 1000000000 = k * (d * 1000000000) := by
    constructor <;> intro h <;> linarith
  rw [← e]
  by_cases hd2 : d < 2 ^ 53
  · rw [roundSigned_int (by rw [abs_of_pos hd]; exact hd2)]
    exact roundSigned_quot hd (lt_trans hab (by norm_num))
  · -- a step this long leaves only position 0
    have hd2 : 2 ^ 53 ≤ d := not_lt.1 hd2
    have hD : (2 : ℚ) ^ 53 ≤ d := by exact_mod_cast hd2
    have h1 := roundSigned_error (d : ℚ)
    rw [abs_of_nonneg (a := (d : ℚ)) (by linarith), abs_le] at h1
    have hD' : (2 : ℚ) ^ 52 ≤ roundSigned (d : ℚ) := by
      have : (d : ℚ) * (1 / 2 ^ 53) ≤ d * (1 / 2) := mul_le_mul_of_nonneg_left (by norm_num) (by linarith)
      linarith [h1.1]
    set D := roundSigned (d : ℚ)
    have hDp : 0 < D := lt_of_lt_of_le (by positivity) hD'
    have hq : |((b - a : Int) : ℚ) / D| ≤ 1 / 2 ^ 12 := by
      rw [abs_div, abs_of_pos hDp, div_le_div_iff₀ hDp (by positivity)]
      have : |((b - a : Int) : ℚ)| ≤ 2 ^ 40 := by exact_mod_cast hab.le
      nlinarith
    have h2 := roundSigned_error (((b - a : Int) : ℚ) / D)
    constructor
    · intro h
      rw [h] at h2
      have hk : |(k : ℚ)| < 1 := by
        have e1 : |(k : ℚ)| ≤ |(k : ℚ) - ((b - a : Int) : ℚ) / D| + |((b - a : Int) : ℚ) / D| := by
          have := abs_add_le ((k : ℚ) - ((b - a : Int) : ℚ) / D) (((b - a : Int) : ℚ) / D)
          rwa [sub_add_cancel] at this
        have e2 : |((b - a : Int) : ℚ) / D| * (1 / 2 ^ 53) ≤ 1 / 2 ^ 12 * (1 / 2 ^ 53) :=
          mul_le_mul_of_nonneg_right hq (by positivity)
        have e3 : (1 : ℚ) / 2 ^ 12 * (1 / 2 ^ 53) + 1 / 2 ^ 12 < 1 := by norm_num
        linarith
      have hk : |k| < 1 := by exact_mod_cast hk
      have hk := Int.abs_lt_one_iff.1 hk
      subst hk
      rw [Int.cast_zero, zero_sub, abs_neg] at h2
      have h3 : |((b - a : Int) : ℚ) / D| = 0 := by
        have := abs_nonneg (((b - a : Int) : ℚ) / D)
        have e2 : |((b - a : Int) : ℚ) / D| * (1 / 2 ^ 53) ≤ |((b - a : Int) : ℚ) / D| * (1 / 2) :=
          mul_le_mul_of_nonneg_left (by norm_num) this
        linarith
      rw [abs_eq_zero, div_eq_zero_iff] at h3
      rcases h3 with h3 | h3
      · have : b - a = 0 := by exact_mod_cast h3
        omega
      · exact absurd h3 hDp.ne'
    · intro h
      have hk : k = 0 := by
        by_contra hk
        have : 1 ≤ |k| := Int.one_le_abs hk
        rw [h, abs_mul, abs_of_pos hd] at hab
        nlinarith
      rw [h, hk]
      have := roundSigned_int (z := 0) (by norm_num)
      simpa using this

/-- the position of any instant is accurate to 20 microseconds -/
theorem position_near {s t : Stamp} (hs : InRange s) (ht : InRange t) {d k : Int} (hd : 0 < d)
    (h : roundSigned (roundSigned (timestampFloat t.ns - timestampFloat s.ns) / roundSigned (d : ℚ)) = k) :
    |t.ns - s.ns - k * (d * 1000000000)| ≤ 20000 := by
  have hD : (1 : ℚ) ≤ d := by exact_mod_cast hd
  have e1 := timestampFloat_error hs
  have e2 := timestampFloat_error ht
  have rs : |(s.ns : ℚ)| ≤ 2 ^ 63 := by exact_mod_cast hs
  have rt : |(t.ns : ℚ)| ≤ 2 ^ 63 := by exact_mod_cast ht
  set x := timestampFloat t.ns - timestampFloat s.ns with hx
  have e3 := roundSigned_error x
  set y := roundSigned x
  have e4 := roundSigned_error (d : ℚ)
  rw [abs_of_nonneg (by linarith : (0 : ℚ) ≤ d)] at e4
  set D := roundSigned (d : ℚ)
  rw [abs_le] at e1 e2 rs rt e4
  have hDp : 0 < D := by linarith [e4.1]
  have e5 := roundSigned_error (y / D)
  rw [h, abs_div, abs_of_pos hDp] at e5
  have hxa : |x| ≤ 20000000000 := by
    rw [abs_le]; constructor <;> linarith [e1.1, e1.2, e2.1, e2.2, rs.1, rs.2, rt.1, rt.2]
  have e3' : |y - x| ≤ 20000000000 * (1 / 2 ^ 53) := le_trans e3 (mul_le_mul_of_nonneg_right hxa (by positivity))
  rw [abs_le] at e3' hxa
  have hya : |y| ≤ 20000000001 := by
    rw [abs_le]; constructor <;> linarith [e3'.1, e3'.2, hxa.1, hxa.2]
  have e6 : |(k : ℚ) * D - y| ≤ 20000000001 * (1 / 2 ^ 53) := by
    have e : (k : ℚ) * D - y = ((k : ℚ) - y / D) * D := by field_simp
    rw [e, abs_mul, abs_of_pos hDp]
    calc _ ≤ |y| / D * (1 / 2 ^ 53) * D := mul_le_mul_of_nonneg_right e5 hDp.le
      _ = |y| * (1 / 2 ^ 53) := by field_simp
      _ ≤ _ := mul_le_mul_of_nonneg_right hya (by positivity)
  have hdD : (d : ℚ) ≤ 2 * D := by linarith [e4.1]
  have hkD : |(k : ℚ)| * D ≤ 20000000002 := by
    have : |(k : ℚ)| * D = |(k : ℚ) * D| := by rw [abs_mul, abs_of_pos hDp]
    rw [this]
    have h0 := abs_add_le ((k : ℚ) * D - y) y
    rw [sub_add_cancel] at h0
    linarith
  have e7 : |(k : ℚ) * d - k * D| ≤ 40000000004 * (1 / 2 ^ 53) := by
    rw [← mul_sub, abs_mul, abs_sub_comm]
    have : |D - (d : ℚ)| ≤ d * (1 / 2 ^ 53) := abs_le.2 e4
    calc _ ≤ |(k : ℚ)| * (2 * D * (1 / 2 ^ 53)) :=
          mul_le_mul_of_nonneg_left (le_trans this (mul_le_mul_of_nonneg_right hdD (by positivity))) (abs_nonneg _)
      _ = 2 * (|(k : ℚ)| * D) * (1 / 2 ^ 53) := by ring
      _ ≤ _ := by nlinarith
  rw [abs_le] at e6 e7
  have fin : |((t.ns - s.ns - k * (d * 1000000000) : Int) : ℚ)| ≤ 20000 := by
    push_cast
    rw [abs_le]
    constructor <;> linarith [e1.1, e1.2, e2.1, e2.2, e3'.1, e3'.2, e6.1, e6.2, e7.1, e7.2]
  exact_mod_cast fin

theorem ratio_eq_int' {x k d : Int} (hd : 0 < d) : ((x : ℚ) / (d : ℚ) = (k : ℚ)) ↔ x = k * d := by
  have hd' : (d : ℚ) ≠ 0 := by exact_mod_cast hd.ne'
  rw [div_eq_iff hd']
  exact_mod_cast Iff.rfl

/-- months test -/
theorem monthly_onGrid {s t : Stamp} {ci k : Int} (hci : 0 < ci) (hs : Valid s) (ht : Valid t)
    (hns : s.ns ≤ t.ns) (hle : DateLE s t) :
    OnGrid .monthly ci s t k ↔ (getDateDifference t s).days = 0 ∧
      (((getDateDifference t s).months + (getDateDifference t s).years * 12 : Int) : ℚ) / ci = k := by
  have key := getDateDifference_of_le ht hs (by omega) hle
  simp only at key
  obtain ⟨-, -, -, -, -, k6, k7, -, -⟩ := key
  rw [ratio_eq_int' hci, k6]
  show _ ∧ _ ↔ _ ∧ _
  constructor
  · rintro ⟨h1, h2⟩
    have := k7 (k6.2 h2)
    exact ⟨h2, by omega⟩
  · rintro ⟨h1, h2⟩
    have := k7 (k6.2 h1)
    exact ⟨by omega, h1⟩

theorem yearly_onGrid {s t : Stamp} {ci k : Int} (hci : 0 < ci) (hs : Valid s) (ht : Valid t)
    (hns : s.ns ≤ t.ns) (hle : DateLE s t) :
    OnGrid .yearly ci s t k ↔ ((getDateDifference t s).days = 0 ∧ (getDateDifference t s).months = 0) ∧
      (((getDateDifference t s).years : Int) : ℚ) / ci = k := by
  have key := getDateDifference_of_le ht hs (by omega) hle
  simp only at key
  obtain ⟨-, k2, k3, -, -, k6, k7, -, -⟩ := key
  rw [ratio_eq_int' hci, k6]
  show _ ∧ _ ↔ _ ∧ _
  constructor
  · rintro ⟨h1, h2⟩
    have h7 := k7 (k6.2 h2)
    generalize k * ci = z at *
    exact ⟨⟨h2, by omega⟩, by omega⟩
  · rintro ⟨⟨h1, h0⟩, h2⟩
    have h7 := k7 (k6.2 h1)
    generalize k * ci = z at *
    exact ⟨by omega, h1⟩

/-- The granularities whose grid is specified by `OnGrid`. -/
def Gridded (g : Granularity) : Prop := g ≠ .none ∧ g ≠ .microsecond

theorem gridded_cases {g : Granularity} (h : Gridded g) :
    g = .monthly ∨ g = .yearly ∨ ∃ sec, stepSeconds g = some sec := by
  cases g <;> simp_all [Gridded, stepSeconds]

/-- **C05** (timestamp to index map). For months and years, and for whole seconds, the positions are exactly the step
counts of the grid; the first is 0. -/
theorem C05_index_map {g : Granularity} (hg : Gridded g) {ci : Option Int} {ts : List Stamp}
    (hts : GoodStamps ts) (hw : stepSeconds g = none ∨ ∀ t ∈ ts, WholeSecond t) {idx : List Int} (h : getIndices g ci ts = .ok (.ok idx)) :
    idx.length = ts.length ∧ (∀ k ∈ idx.head?, k = 0) ∧
    ∀ s ∈ ts.head?, List.Forall₂ (fun t k => OnGrid g (effInterval ci) s t k) ts idx := by
  cases ts with
  | nil => simp [getIndices] at h; subst h; simp
  | cons s ts =>
    have hs : Valid s := hts.1 s (by simp)
    have hci := effInterval_pos ci
    have main : List.Forall₂ (fun t k => OnGrid g (effInterval ci) s t k) (s :: ts) idx := by
      rcases gridded_cases hg with rfl | rfl | ⟨sec, hsec⟩
      · simp only [getIndices] at h
        split at h
        · simp at h
        · rename_i hfb
          simp only [Except.ok.injEq] at h
          have e := intLoop_ok h
          have hb := firstBad_none hfb
          rw [List.map_map] at e
          rw [List.forall₂_iff_get]
          have hl : (s :: ts).length = idx.length := by simpa using congrArg List.length e
          refine ⟨hl, ?_⟩
          intro i h1 h2
          have ht : (s :: ts)[i] ∈ s :: ts := List.getElem_mem h1
          obtain ⟨h3, h4⟩ := hts.2 s (by simp) _ ht
          refine (monthly_onGrid hci hs (hts.1 _ ht) h3 h4).2 ⟨?_, ?_⟩
          · have := hb _ (List.mem_map_of_mem ht)
            simpa using this
          · have := congrArg (fun l => l[i]?) e
            simpa only [List.getElem?_map, List.getElem?_eq_getElem h1, List.getElem?_eq_getElem h2,
              Option.map_some, Option.some.injEq, Function.comp_apply, List.get_eq_getElem, effInterval] using this
      · simp only [getIndices] at h
        split at h
        · simp at h
        · rename_i hfb
          simp only [Except.ok.injEq] at h
          have e := intLoop_ok h
          have hb := firstBad_none hfb
          rw [List.map_map] at e
          rw [List.forall₂_iff_get]
          have hl : (s :: ts).length = idx.length := by simpa using congrArg List.length e
          refine ⟨hl, ?_⟩
          intro i h1 h2
          have ht : (s :: ts)[i] ∈ s :: ts := List.getElem_mem h1
          obtain ⟨h3, h4⟩ := hts.2 s (by simp) _ ht
          refine (yearly_onGrid hci hs (hts.1 _ ht) h3 h4).2 ⟨?_, ?_⟩
          · have := hb _ (List.mem_map_of_mem ht)
            simpa using this
          · have := congrArg (fun l => l[i]?) e
            simpa only [List.getElem?_map, List.getElem?_eq_getElem h1, List.getElem?_eq_getElem h2,
              Option.map_some, Option.some.injEq, Function.comp_apply, List.get_eq_getElem, effInterval] using this
      · rw [getIndices_fixed hsec] at h
        simp only [Except.ok.injEq] at h
        have e := intLoop_ok h
        rw [List.forall₂_iff_get]
        have hl : (s :: ts).length = idx.length := by simpa using congrArg List.length e
        refine ⟨hl, ?_⟩
        intro i h1 h2
        rw [onGrid_fixed hsec]
        have hp : 0 < sec * effInterval ci := Int.mul_pos (stepSeconds_pos hsec) hci
        have hw : ∀ t ∈ s :: ts, WholeSecond t := by
          rcases hw with hw | hw
          · rw [hsec] at hw; cases hw
          · exact hw
        refine (position_whole (hw s (by simp)) (hw _ (List.getElem_mem h1)) hp).1 ?_
        have := congrArg (fun l => l[i]?) e
        simpa only [List.getElem?_map, List.getElem?_eq_getElem h1, List.getElem?_eq_getElem h2,
          Option.map_some, Option.some.injEq, List.get_eq_getElem] using this
    refine ⟨main.length_eq.symm, ?_, by simpa using main⟩
    cases main with
    | cons h0 _ =>
      rename_i k idx
      simp only [List.head?_cons, Option.mem_def, Option.some.injEq, forall_eq']
      rcases gridded_cases hg with rfl | rfl | ⟨sec, hsec⟩
      · obtain ⟨h0, -⟩ := h0
        rw [sub_self] at h0
        rcases Int.mul_eq_zero.1 h0.symm with h0 | h0
        · exact h0
        · omega
      · obtain ⟨h0, -⟩ := h0
        rw [sub_self] at h0
        rcases Int.mul_eq_zero.1 h0.symm with h0 | h0
        · rcases Int.mul_eq_zero.1 h0 with h0 | h0
          · exact h0
          · omega
        · omega
      · rw [onGrid_fixed hsec, sub_self] at h0
        have hp : 0 < sec * effInterval ci := Int.mul_pos (stepSeconds_pos hsec) hci
        rcases Int.mul_eq_zero.1 h0.symm with h0 | h0
        · exact h0
        · omega

/-- **C05**, any instants: the positions are the step counts up to 20 microseconds. -/
theorem C05_near {g : Granularity} (hg : Gridded g) {ci : Option Int} {ts : List Stamp}
    (hts : GoodStamps ts) (hr : ∀ t ∈ ts, InRange t) {idx : List Int} (h : getIndices g ci ts = .ok (.ok idx)) :
    ∀ s ∈ ts.head?, List.Forall₂ (fun t k => NearGrid g (effInterval ci) s t k) ts idx := by
  cases hsec : stepSeconds g with
  | none =>
    intro s hs
    refine ((C05_index_map hg hts (.inl hsec) h).2.2 s hs).imp fun t k hk => ?_
    unfold NearGrid
    rw [hsec]
    exact hk
  | some sec =>
    cases ts with
    | nil => simp
    | cons s ts =>
      intro s' hs'
      simp only [List.head?_cons, Option.mem_def, Option.some.injEq] at hs'
      subst hs'
      rw [getIndices_fixed hsec] at h
      simp only [Except.ok.injEq] at h
      have e := intLoop_ok h
      rw [List.forall₂_iff_get]
      refine ⟨by simpa using congrArg List.length e, ?_⟩
      intro i h1 h2
      unfold NearGrid
      rw [hsec]
      have hp : 0 < sec * effInterval ci := Int.mul_pos (stepSeconds_pos hsec) (effInterval_pos ci)
      refine position_near (hr s (by simp)) (hr _ (List.getElem_mem h1)) hp ?_
      have := congrArg (fun l => l[i]?) e
      simpa only [List.getElem?_map, List.getElem?_eq_getElem h1, List.getElem?_eq_getElem h2,
        Option.map_some, Option.some.injEq, List.get_eq_getElem] using this

/-- **C05** is not exact for other instants: two stamps 1 ns apart get the same position; the hour from 13:36:03.1 on
10 January 2004 is no hour of the hourly grid; one second from the year 2128 is no second. -/
theorem C05_inexact :
    getIndices .secondly none [⟨0, 1970, 1, 1⟩, ⟨1, 1970, 1, 1⟩] = .ok (.ok [0, 0]) ∧
    getIndices .hourly none [⟨1073741763100000000, 2004, 1, 10⟩, ⟨1073741763100000000 + 3600000000000, 2004, 1, 10⟩] =
      .ok (.invalid 1) ∧
    OnGrid .hourly 1 ⟨1073741763100000000, 2004, 1, 10⟩ ⟨1073741763100000000 + 3600000000000, 2004, 1, 10⟩ 1 ∧
    getIndices .secondly none [⟨5000000000000000000, 2128, 6, 11⟩, ⟨5000000001000000000, 2128, 6, 11⟩] =
      .ok (.invalid 1) ∧
    OnGrid .secondly 1 ⟨5000000000000000000, 2128, 6, 11⟩ ⟨5000000001000000000, 2128, 6, 11⟩ 1 := by
  refine ⟨by decide +kernel, by decide +kernel, ⟨3600, rfl, by norm_num⟩, by decide +kernel, ⟨1, rfl, by norm_num⟩⟩

/-- **C05**, strict increase: for whole seconds in strictly ascending order the positions of a fixed-length
granularity are strictly increasing. -/
theorem C05_index_strictly_increasing {g : Granularity} {sec : Int} (hg : stepSeconds g = some sec)
    {ci : Option Int} {ts : List Stamp} (hts : GoodStamps ts) (hw : ∀ t ∈ ts, WholeSecond t) (hasc : ts.Pairwise fun a b => a.ns < b.ns)
    {idx : List Int} (h : getIndices g ci ts = .ok (.ok idx)) : idx.Pairwise (· < ·) := by
  have hgr : Gridded g := by cases g <;> simp_all [Gridded, stepSeconds]
  obtain ⟨-, -, hf⟩ := C05_index_map hgr hts (.inr hw) h
  cases ts with
  | nil => simp [getIndices] at h; subst h; simp
  | cons s ts =>
    have hf := hf s (by simp)
    rw [List.forall₂_iff_get] at hf
    obtain ⟨hl, hf⟩ := hf
    rw [List.pairwise_iff_getElem] at hasc ⊢
    intro i j hi hj hij
    have h1 := (onGrid_fixed hg _ _ _ _).1 (hf i (by omega) hi)
    have h2 := (onGrid_fixed hg _ _ _ _).1 (hf j (by omega) hj)
    have h3 := hasc i j (by omega) (by omega) hij
    simp only [List.get_eq_getElem] at h1 h2
    have hp : 0 < sec * effInterval ci * 1000000000 :=
      Int.mul_pos (Int.mul_pos (stepSeconds_pos hg) (effInterval_pos ci)) (by omega)
    have h4 : idx[i] * (sec * effInterval ci * 1000000000) < idx[j] * (sec * effInterval ci * 1000000000) := by
      rw [← h1, ← h2]; omega
    exact lt_of_mul_lt_mul_right h4 hp.le

/-- **C05**, rejection: among whole seconds the reported index is the first timestamp that is off the grid. -/
theorem C05_first_invalid {g : Granularity} {sec : Int} (hg : stepSeconds g = some sec) {ci : Option Int}
    {s : Stamp} {ts : List Stamp} (hw : ∀ t ∈ s :: ts, WholeSecond t) {i : Nat}
    (h : getIndices g ci (s :: ts) = .ok (.invalid i)) :
    ∃ hi : i < (s :: ts).length, (∀ k, ¬ OnGrid g (effInterval ci) s ((s :: ts)[i]) k) ∧
      ∀ j (hj : j < i), ∃ k, OnGrid g (effInterval ci) s ((s :: ts)[j]'(by omega)) k := by
  rw [getIndices_fixed hg] at h
  simp only [Except.ok.injEq] at h
  obtain ⟨k, hk, hk1, hk2, hk3⟩ := intLoop_invalid h
  have hp : 0 < sec * effInterval ci := Int.mul_pos (stepSeconds_pos hg) (effInterval_pos ci)
  have hik : i = k := by omega
  subst hik
  rw [List.length_map] at hk1
  have g1 : ∀ j (hj : j < (s :: ts).length), (((s :: ts).map fun t =>
      roundSigned (roundSigned (timestampFloat t.ns - timestampFloat s.ns) /
        roundSigned ((sec * effInterval ci : Int) : ℚ))).getD j 0) =
      roundSigned (roundSigned (timestampFloat ((s :: ts)[j]).ns - timestampFloat s.ns) /
        roundSigned ((sec * effInterval ci : Int) : ℚ)) := by
    intro j hj
    rw [List.getD_eq_getElem?_getD, List.getElem?_map, List.getElem?_eq_getElem hj]
    rfl
  refine ⟨hk1, ?_, ?_⟩
  · intro z hz
    rw [onGrid_fixed hg, ← position_whole (hw s (by simp)) (hw _ (List.getElem_mem hk1)) hp] at hz
    exact hk2 z (by rw [g1 i hk1]; exact hz)
  · intro j hj
    obtain ⟨z, hz⟩ := hk3 j hj
    refine ⟨z, ?_⟩
    rw [onGrid_fixed hg, ← position_whole (hw s (by simp)) (hw _ (List.getElem_mem (by omega))) hp, ← hz, g1 j (by omega)]

/-- **C05**, rejection for calendar granularities. -/
theorem C05_first_invalid_calendar {g : Granularity} (hg : g = .monthly ∨ g = .yearly) {ci : Option Int}
    {s : Stamp} {ts : List Stamp} (hts : GoodStamps (s :: ts)) {i : Nat}
    (h : getIndices g ci (s :: ts) = .ok (.invalid i)) :
    ∃ hi : i < (s :: ts).length, ∀ k, ¬ OnGrid g (effInterval ci) s ((s :: ts)[i]) k := by
  have hs : Valid s := hts.1 s (by simp)
  have hci := effInterval_pos ci
  rcases hg with rfl | rfl
  · simp only [getIndices] at h
    split at h
    · rename_i j hfb
      simp only [Except.ok.injEq, IdxResult.invalid.injEq] at h
      subst h
      obtain ⟨k, hk, hk1, hk2, -⟩ := firstBad_some hfb
      rw [List.length_map] at hk1
      have hjk : j = k := by omega
      subst hjk
      refine ⟨hk1, ?_⟩
      intro z hz
      have ht : (s :: ts)[j] ∈ s :: ts := List.getElem_mem hk1
      obtain ⟨h3, h4⟩ := hts.2 s (by simp) _ ht
      have := ((monthly_onGrid hci hs (hts.1 _ ht) h3 h4).1 hz).1
      rw [List.getElem_map] at hk2
      simp [this] at hk2
    · simp only [Except.ok.injEq] at h
      obtain ⟨k, hk, hk1, hk2, -⟩ := intLoop_invalid h
      rw [List.length_map, List.length_map] at hk1
      have hjk : i = k := by omega
      subst hjk
      refine ⟨hk1, ?_⟩
      intro z hz
      have ht : (s :: ts)[i] ∈ s :: ts := List.getElem_mem hk1
      obtain ⟨h3, h4⟩ := hts.2 s (by simp) _ ht
      have := ((monthly_onGrid hci hs (hts.1 _ ht) h3 h4).1 hz).2
      apply hk2 z
      rw [List.getD_eq_getElem?_getD, List.getElem?_map, List.getElem?_map, List.getElem?_eq_getElem hk1]
      exact this
  · simp only [getIndices] at h
    split at h
    · rename_i j hfb
      simp only [Except.ok.injEq, IdxResult.invalid.injEq] at h
      subst h
      obtain ⟨k, hk, hk1, hk2, -⟩ := firstBad_some hfb
      rw [List.length_map] at hk1
      have hjk : j = k := by omega
      subst hjk
      refine ⟨hk1, ?_⟩
      intro z hz
      have ht : (s :: ts)[j] ∈ s :: ts := List.getElem_mem hk1
      obtain ⟨h3, h4⟩ := hts.2 s (by simp) _ ht
      have := ((yearly_onGrid hci hs (hts.1 _ ht) h3 h4).1 hz).1
      rw [List.getElem_map] at hk2
      simp [this] at hk2
    · simp only [Except.ok.injEq] at h
      obtain ⟨k, hk, hk1, hk2, -⟩ := intLoop_invalid h
      rw [List.length_map, List.length_map] at hk1
      have hjk : i = k := by omega
      subst hjk
      refine ⟨hk1, ?_⟩
      intro z hz
      have ht : (s :: ts)[i] ∈ s :: ts := List.getElem_mem hk1
      obtain ⟨h3, h4⟩ := hts.2 s (by simp) _ ht
      have := ((yearly_onGrid hci hs (hts.1 _ ht) h3 h4).1 hz).2
      apply hk2 z
      rw [List.getD_eq_getElem?_getD, List.getElem?_map, List.getElem?_map, List.getElem?_eq_getElem hk1]
      exact this

/-- For calendar granularities with an interval the reported index need not be the first one off the grid: of
the months January, February, March 2nd with a two month interval the code names the third, although February
is off the grid already. -/
theorem C05_first_invalid_calendar_not_first :
    getIndices .monthly (some 2) [⟨0, 2024, 1, 1⟩, ⟨1, 2024, 2, 1⟩, ⟨2, 2024, 3, 2⟩] = .ok (.invalid 2) ∧
    ∀ k, ¬ OnGrid .monthly 2 ⟨0, 2024, 1, 1⟩ ⟨1, 2024, 2, 1⟩ k := by
  refine ⟨by decide +kernel, ?_⟩
  intro k h
  have h1 := h.1
  simp only [monthNo] at h1
  omega

/-- non-vacuity: a daily series with a gap, every second day -/
example : GoodStamps [⟨0, 2024, 2, 27⟩, ⟨172800000000000, 2024, 2, 29⟩, ⟨518400000000000, 2024, 3, 4⟩] ∧
    getIndices .daily (some 2)
      [⟨0, 2024, 2, 27⟩, ⟨172800000000000, 2024, 2, 29⟩, ⟨518400000000000, 2024, 3, 4⟩] = .ok (.ok [0, 1, 3]) ∧
    getIndices .daily (some 2) [⟨0, 2024, 2, 27⟩, ⟨86400000000000, 2024, 2, 28⟩] = .ok (.invalid 1) := by
  refine ⟨⟨?_, ?_⟩, by decide +kernel, by decide +kernel⟩
  · intro t ht
    simp only [List.mem_cons, List.not_mem_nil, or_false] at ht
    rcases ht with rfl | rfl | rfl <;> exact ⟨by decide, by decide, by decide, by decide⟩
  · intro s hs t ht
    simp only [List.head?_cons, Option.mem_def, Option.some.injEq] at hs
    subst hs
    simp only [List.mem_cons, List.not_mem_nil, or_false] at ht
    rcases ht with rfl | rfl | rfl
    · exact ⟨by decide, .inr ⟨by decide, by decide⟩⟩
    · exact ⟨by decide, .inr ⟨by decide, by decide⟩⟩
    · exact ⟨by decide, .inl (by decide)⟩

/-- non-vacuity: month ends -/
example : getIndices .monthly none
    [⟨0, 2024, 1, 31⟩, ⟨2505600000000000, 2024, 2, 29⟩, ⟨5184000000000000, 2024, 3, 31⟩] =
      .ok (.ok [0, 1, 2]) := by decide +kernel

/-! ### C65: microsecond granularity -/

/-- **C65** is false of the code: with granularity `microsecond` a customInterval of 4007 is read as 4006,
because `int(0.001 * 4007 * 1000)` truncates a double just below 4007. -/
theorem C65_microsecond_interval_false : msStep 4007 = 4006 := by decide +kernel

/-- **C65**, what does hold: the step is the interval or one less (intervals below 2^50). -/
theorem C65_microsecond_interval_near {k : Int} (hk : 0 < k) (hk' : k < 2 ^ 50) :
    msStep k = k ∨ msStep k = k - 1 := by
  have hkq : (1 : ℚ) ≤ (k : ℚ) := by exact_mod_cast hk
  have hkq' : (k : ℚ) < 2 ^ 50 := by exact_mod_cast hk'
  have e1 := roundDouble_error (q := 1 / 1000) (by norm_num)
  set a := roundDouble (1 / 1000) with ha
  rw [abs_le] at e1
  have ap : 0 < a := by linarith [e1.1]
  have e2 := roundDouble_error (q := a * k) (by positivity)
  set b := roundDouble (a * k) with hb
  rw [abs_le] at e2
  have bp : 0 < b := by
    have : 0 < a * k := by positivity
    nlinarith [e2.1]
  have e3 := roundDouble_error (q := b * 1000) (by positivity)
  set c := roundDouble (b * 1000) with hc
  rw [abs_le] at e3
  -- each factor is within 2^-53 of its exact value
  have ha1 : 1 / 1000 * (1 - 1 / 2 ^ 53) ≤ a := by linarith [e1.1]
  have ha2 : a ≤ 1 / 1000 * (1 + 1 / 2 ^ 53) := by linarith [e1.2]
  have hb1 : a * k * (1 - 1 / 2 ^ 53) ≤ b := by linarith [e2.1]
  have hb2 : b ≤ a * k * (1 + 1 / 2 ^ 53) := by linarith [e2.2]
  have hc1 : b * 1000 * (1 - 1 / 2 ^ 53) ≤ c := by linarith [e3.1]
  have hc2 : c ≤ b * 1000 * (1 + 1 / 2 ^ 53) := by linarith [e3.2]
  have hk0 : (0 : ℚ) < k := by linarith
  have low : (k : ℚ) * ((1 - 1 / 2 ^ 53) * (1 - 1 / 2 ^ 53) * (1 - 1 / 2 ^ 53)) ≤ c := by
    have s1 : 1 / 1000 * (1 - 1 / 2 ^ 53) * k ≤ a * k := mul_le_mul_of_nonneg_right ha1 hk0.le
    have s2 : 1 / 1000 * (1 - 1 / 2 ^ 53) * k * (1 - 1 / 2 ^ 53) ≤ b :=
      le_trans (mul_le_mul_of_nonneg_right s1 (by norm_num)) hb1
    have s3 : 1 / 1000 * (1 - 1 / 2 ^ 53) * k * (1 - 1 / 2 ^ 53) * 1000 * (1 - 1 / 2 ^ 53) ≤ c :=
      le_trans (mul_le_mul_of_nonneg_right (mul_le_mul_of_nonneg_right s2 (by norm_num)) (by norm_num)) hc1
    calc _ = 1 / 1000 * (1 - 1 / 2 ^ 53) * (k : ℚ) * (1 - 1 / 2 ^ 53) * 1000 * (1 - 1 / 2 ^ 53) := by ring
      _ ≤ c := s3
  have high : c ≤ (k : ℚ) * ((1 + 1 / 2 ^ 53) * (1 + 1 / 2 ^ 53) * (1 + 1 / 2 ^ 53)) := by
    have s1 : a * k ≤ 1 / 1000 * (1 + 1 / 2 ^ 53) * k := mul_le_mul_of_nonneg_right ha2 hk0.le
    have s2 : b ≤ 1 / 1000 * (1 + 1 / 2 ^ 53) * k * (1 + 1 / 2 ^ 53) :=
      le_trans hb2 (mul_le_mul_of_nonneg_right s1 (by norm_num))
    have s3 : c ≤ 1 / 1000 * (1 + 1 / 2 ^ 53) * k * (1 + 1 / 2 ^ 53) * 1000 * (1 + 1 / 2 ^ 53) :=
      le_trans hc2 (mul_le_mul_of_nonneg_right (mul_le_mul_of_nonneg_right s2 (by norm_num)) (by norm_num))
    calc c ≤ _ := s3
      _ = _ := by ring
  have low' : (k : ℚ) - 1 ≤ c := by
    have : (k : ℚ) * (1 - 4 / 2 ^ 53) ≤ c :=
      le_trans (mul_le_mul_of_nonneg_left (by norm_num) hk0.le) low
    linarith
  have high' : c < (k : ℚ) + 1 := by
    have : c ≤ (k : ℚ) * (1 + 4 / 2 ^ 53) :=
      le_trans high (mul_le_mul_of_nonneg_left (by norm_num) hk0.le)
    linarith
  have hms : msStep k = c.floor := by
    unfold msStep
    rw [roundSigned_int (by rw [abs_of_pos hk]; omega)]
  rw [hms]
  have f1 : k - 1 ≤ c.floor := Rat.le_floor_iff.2 (by push_cast; exact low')
  have f2 : c.floor < k + 1 := by
    have := Rat.floor_le c
    have h5 : ((c.floor : Int) : ℚ) < ((k + 1 : Int) : ℚ) := by push_cast; linarith
    exact_mod_cast h5
  omega

example : msStep 1 = 1 ∧ msStep 4007 = 4007 - 1 := by decide +kernel

/-- **C65**, the grid: the granularity `microsecond` counts milliseconds. For stamps of whole milliseconds between
3 November 2004 and 18 January 2038 the positions are the elapsed milliseconds divided by the step. -/
theorem C65_grid {ci : Option Int} (hci : effInterval ci < 2 ^ 50) {s : Stamp} {ts : List Stamp}
    (hms : ∀ t ∈ s :: ts, ∃ m : Int, 2 ^ 40 < m ∧ m < 2 ^ 31 * 1000 ∧ t.ns = m * 1000000) {idx : List Int}
    (h : getIndices .microsecond ci (s :: ts) = .ok (.ok idx)) :
    ∃ step : Int, (step = effInterval ci ∨ step = effInterval ci - 1) ∧
      List.Forall₂ (fun (t : Stamp) (k : Int) => t.ns - s.ns = k * (step * 1000000)) (s :: ts) idx := by
  refine ⟨msStep (effInterval ci), C65_microsecond_interval_near (effInterval_pos ci) hci, ?_⟩
  have hp : 0 < msStep (effInterval ci) := by
    have h1 : msStep 1 = 1 := by decide +kernel
    have hpos := effInterval_pos ci
    rcases C65_microsecond_interval_near hpos hci with e | e
    · omega
    · by_cases h2 : effInterval ci = 1
      · rw [h2, h1]; omega
      · omega
  have h : (if msStep (effInterval ci) = 0 then Except.error PyErr.zeroDivision
      else Except.ok (intLoop ((s :: ts).map fun t =>
        ((timestampMs t.ns - timestampMs s.ns : Int) : ℚ) / msStep (effInterval ci)) 0)) = .ok (.ok idx) := h
  rw [if_neg hp.ne'] at h
  simp only [Except.ok.injEq] at h
  have e := intLoop_ok h
  rw [List.forall₂_iff_get]
  refine ⟨by simpa using congrArg List.length e, ?_⟩
  intro i h1 h2
  have hx := congrArg (fun l => l[i]?) e
  simp only [List.getElem?_map, List.getElem?_eq_getElem h1, List.getElem?_eq_getElem h2,
    Option.map_some, Option.some.injEq] at hx
  rw [ratio_eq_int' hp] at hx
  obtain ⟨m, a1, a2, a3⟩ := hms s (by simp)
  obtain ⟨n, b1, b2, b3⟩ := hms _ (List.getElem_mem h1)
  rw [a3, b3, timestampMs_exact a1 a2, timestampMs_exact b1 b2] at hx
  simp only [List.get_eq_getElem]
  rw [a3, b3]
  linarith

/-- **C65**, outside this range `int(t.timestamp() * 1000)` loses milliseconds: two stamps of January 2004, one
millisecond apart, get the same position, and microseconds are not seen at all. -/
theorem C65_lost_milliseconds :
    getIndices .microsecond none [⟨1073741824000000000, 2004, 1, 10⟩, ⟨1073741824001000000, 2004, 1, 10⟩] =
      .ok (.ok [0, 0]) ∧
    getIndices .microsecond none [⟨1600000000000000000, 2020, 9, 13⟩, ⟨1600000000000001000, 2020, 9, 13⟩] =
      .ok (.ok [0, 0]) := by
  refine ⟨by decide +kernel, by decide +kernel⟩

/-- non-vacuity: three stamps 4006 ms apart are on the grid of 4007, three stamps 4007 ms apart are not -/
example : getIndices .microsecond (some 4007) [⟨1600000000000 * 1000000, 2020, 9, 13⟩,
      ⟨1600000004006 * 1000000, 2020, 9, 13⟩, ⟨1600000008012 * 1000000, 2020, 9, 13⟩] = .ok (.ok [0, 1, 2]) ∧
    getIndices .microsecond (some 4007) [⟨1600000000000 * 1000000, 2020, 9, 13⟩,
      ⟨1600000004007 * 1000000, 2020, 9, 13⟩, ⟨1600000008014 * 1000000, 2020, 9, 13⟩] = .ok (.invalid 1) := by
  refine ⟨by decide +kernel, by decide +kernel⟩

end Verif
