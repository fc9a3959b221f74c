import Verif.Uni.Extra
import Verif.Uni.Double
import Verif.Spec.Extra
import Mathlib.Data.Nat.Prime.Basic
import Mathlib.Tactic.NormNum.Prime

/-!
# The pattern of a period (C99)
-/

namespace Verif
open Spec

/-! ### period patterns -/

/-- the product of the double nearest to 0.001 with `k` and `p`, computed in doubles -/
def msProduct (k p : Int) : ℚ := dmul (dmul MICRO_SECOND (roundSigned k)) (roundSigned p)

theorem smooth_divisor {a b c d k : Nat} (h : k ∣ 2 ^ a * 3 ^ b * 5 ^ c * 7 ^ d) :
    ∃ i < a + 1, ∃ j < b + 1, ∃ l < c + 1, ∃ m < d + 1, k = 2 ^ i * 3 ^ j * 5 ^ l * 7 ^ m := by
  obtain ⟨k1, k2, h1, h2, rfl⟩ := (Nat.dvd_mul).1 h
  obtain ⟨k3, k4, h3, h4, rfl⟩ := (Nat.dvd_mul).1 h1
  obtain ⟨k5, k6, h5, h6, rfl⟩ := (Nat.dvd_mul).1 h3
  obtain ⟨i, hi, rfl⟩ := (Nat.dvd_prime_pow (by norm_num)).1 h5
  obtain ⟨j, hj, rfl⟩ := (Nat.dvd_prime_pow (by norm_num)).1 h6
  obtain ⟨l, hl, rfl⟩ := (Nat.dvd_prime_pow (by norm_num)).1 h4
  obtain ⟨m, hm, rfl⟩ := (Nat.dvd_prime_pow (by norm_num)).1 h2
  exact ⟨i, by omega, j, by omega, l, by omega, m, by omega, rfl⟩

/-- the product is exact enough for every split of a whole number of years, months, … into interval and period -/
def exactSplits (a b c d : Nat) (u : ℚ) : Prop :=
  ∀ i < a + 1, ∀ j < b + 1, ∀ l < c + 1, ∀ m < d + 1,
    u ≤ msProduct ((2 ^ i * 3 ^ j * 5 ^ l * 7 ^ m : Nat) : Int) ((2 ^ (a - i) * 3 ^ (b - j) * 5 ^ (c - l) * 7 ^ (d - m) : Nat) : Int)

instance (a b c d : Nat) (u : ℚ) : Decidable (exactSplits a b c d u) := by unfold exactSplits; infer_instance

theorem splits_second : exactSplits 3 0 3 0 1 := by decide +kernel
theorem splits_minute : exactSplits 5 1 4 0 MINUTE_SECOND := by decide +kernel
theorem splits_hour : exactSplits 7 2 5 0 HOUR_SECOND := by decide +kernel
theorem splits_day : exactSplits 10 3 5 0 DAY_SECOND := by decide +kernel
theorem splits_week : exactSplits 10 3 5 1 WEEK_SECOND := by decide +kernel
theorem splits_month : exactSplits 12 3 5 1 MONTH_SECOND := by decide +kernel
theorem splits_year : exactSplits 14 4 5 1 YEAR_SECOND := by decide +kernel

theorem micro_near : |MICRO_SECOND - 1 / 1000| ≤ 1 / 1000 * (1 / 2 ^ 53) := by
  have h := roundDouble_error (q := 1 / 1000) (by norm_num)
  exact h

theorem roundSigned_nonneg {q : ℚ} (h : 0 ≤ q) : 0 ≤ roundSigned q := by
  rw [roundSigned_pos h]
  exact roundDouble_nonneg q

theorem roundSigned_between {q : ℚ} (h : 0 ≤ q) : q * (1 - 1 / 2 ^ 53) ≤ roundSigned q ∧ roundSigned q ≤ q * (1 + 1 / 2 ^ 53) := by
  have := roundSigned_error q
  rw [abs_of_nonneg h, abs_le] at this
  constructor <;> nlinarith [this.1, this.2]

theorem msProduct_between {k p : Int} (hk : 0 ≤ k) (hp : 0 ≤ p) :
    (k * p : ℚ) / 1000 * (1 - 1 / 2 ^ 53) ^ 5 ≤ msProduct k p ∧ msProduct k p ≤ (k * p : ℚ) / 1000 * (1 + 1 / 2 ^ 53) ^ 5 := by
  have qk : (0 : ℚ) ≤ k := by exact_mod_cast hk
  have qp : (0 : ℚ) ≤ p := by exact_mod_cast hp
  obtain ⟨k1, k2⟩ := roundSigned_between qk
  obtain ⟨p1, p2⟩ := roundSigned_between qp
  have nk := roundSigned_nonneg qk
  have np := roundSigned_nonneg qp
  have hm := micro_near
  rw [abs_le] at hm
  have m1 : (1 / 1000 : ℚ) * (1 - 1 / 2 ^ 53) ≤ MICRO_SECOND := by linarith [hm.1]
  have m2 : MICRO_SECOND ≤ (1 / 1000 : ℚ) * (1 + 1 / 2 ^ 53) := by linarith [hm.2]
  have m0 : 0 ≤ MICRO_SECOND := le_trans (by norm_num) m1
  have e0 : (0 : ℚ) ≤ 1 - 1 / 2 ^ 53 := by norm_num
  have e1 : (0 : ℚ) ≤ 1 + 1 / 2 ^ 53 := by norm_num
  unfold msProduct dmul
  have s0 : 0 ≤ MICRO_SECOND * roundSigned k := mul_nonneg m0 nk
  obtain ⟨s1, s2⟩ := roundSigned_between s0
  have ns := roundSigned_nonneg s0
  have t0 : 0 ≤ roundSigned (MICRO_SECOND * roundSigned k) * roundSigned p := mul_nonneg ns np
  obtain ⟨t1, t2⟩ := roundSigned_between t0
  generalize (1 - 1 / 2 ^ 53 : ℚ) = a at *
  generalize (1 + 1 / 2 ^ 53 : ℚ) = b at *
  constructor
  · calc (k * p : ℚ) / 1000 * a ^ 5 = (1 / 1000 * a) * (k * a) * a * (p * a) * a := by ring
      _ ≤ MICRO_SECOND * roundSigned k * a * roundSigned p * a := by gcongr
      _ ≤ roundSigned (MICRO_SECOND * roundSigned k) * roundSigned p * a := by gcongr
      _ ≤ _ := t1
  · calc _ ≤ roundSigned (MICRO_SECOND * roundSigned k) * roundSigned p * b := t2
      _ ≤ MICRO_SECOND * roundSigned k * b * roundSigned p * b := by gcongr
      _ ≤ (1 / 1000 * b) * (k * b) * b * (p * b) * b := by gcongr
      _ = (k * p : ℚ) / 1000 * b ^ 5 := by ring

theorem msProduct_reaches {k p : Int} (hk : 0 ≤ k) (hp : 0 ≤ p) {a b c d : Nat} {u : ℚ} (hs : exactSplits a b c d u)
    (hu : ((2 ^ a * 3 ^ b * 5 ^ c * 7 ^ d : Nat) : ℚ) / 1000 = u) (hU : 2 ^ a * 3 ^ b * 5 ^ c * 7 ^ d < 2 ^ 40) :
    u ≤ msProduct k p ↔ ((2 ^ a * 3 ^ b * 5 ^ c * 7 ^ d : Nat) : Int) ≤ k * p := by
  have hpos : 0 < 2 ^ a * 3 ^ b * 5 ^ c * 7 ^ d := by positivity
  have key : ∀ U : Nat, U = 2 ^ a * 3 ^ b * 5 ^ c * 7 ^ d → (u ≤ msProduct k p ↔ (U : Int) ≤ k * p) := by
    intro U hUe
    rw [← hUe] at hu hU hpos
    have hUq : (U : ℚ) < 2 ^ 40 := by exact_mod_cast hU
    have hUp : (1 : ℚ) ≤ U := by exact_mod_cast hpos
    obtain ⟨h1, h2⟩ := msProduct_between hk hp
    rcases lt_trichotomy (k * p) U with h | h | h
    · refine ⟨fun hc => absurd hc (not_le.2 (lt_of_le_of_lt h2 ?_)), fun hc => by omega⟩
      rw [← hu]
      have hq : (k * p : ℚ) + 1 ≤ U := by exact_mod_cast h
      have hkp : (0 : ℚ) ≤ k * p := by exact_mod_cast mul_nonneg hk hp
      have e : ((1 : ℚ) + 1 / 2 ^ 53) ^ 5 ≤ 1 + 1 / 2 ^ 50 := by norm_num
      nlinarith
    · refine ⟨fun _ => by omega, fun _ => ?_⟩
      obtain ⟨k', rfl⟩ : ∃ n : Nat, k = n := ⟨k.toNat, by omega⟩
      obtain ⟨p', rfl⟩ : ∃ n : Nat, p = n := ⟨p.toNat, by omega⟩
      have h' : k' * p' = 2 ^ a * 3 ^ b * 5 ^ c * 7 ^ d := by rw [← hUe]; exact_mod_cast h
      obtain ⟨i, hi, j, hj, l, hl, m, hm, rfl⟩ := smooth_divisor (Dvd.intro _ h')
      have := hs i hi j hj l hl m hm
      have hp' : p' = 2 ^ (a - i) * 3 ^ (b - j) * 5 ^ (c - l) * 7 ^ (d - m) := by
        have hz : 0 < 2 ^ i * 3 ^ j * 5 ^ l * 7 ^ m := by positivity
        refine Nat.eq_of_mul_eq_mul_left hz (h'.trans ?_)
        rw [show 2 ^ a = 2 ^ i * 2 ^ (a - i) by rw [← pow_add]; congr 1; omega,
          show 3 ^ b = 3 ^ j * 3 ^ (b - j) by rw [← pow_add]; congr 1; omega,
          show 5 ^ c = 5 ^ l * 5 ^ (c - l) by rw [← pow_add]; congr 1; omega,
          show 7 ^ d = 7 ^ m * 7 ^ (d - m) by rw [← pow_add]; congr 1; omega]
        ring
      rw [hp']
      exact this
    · refine ⟨fun _ => by omega, fun _ => le_trans ?_ h1⟩
      rw [← hu]
      have hq : (U : ℚ) + 1 ≤ k * p := by exact_mod_cast h
      have e : (1 : ℚ) - 1 / 2 ^ 50 ≤ (1 - 1 / 2 ^ 53) ^ 5 := by norm_num
      nlinarith
  exact key _ rfl

theorem msProduct_micro {k p : Int} (hk : 0 ≤ k) (hp : 0 ≤ p) : MICRO_SECOND ≤ msProduct k p ↔ 1 ≤ k * p := by
  obtain ⟨h1, h2⟩ := msProduct_between hk hp
  have hm := micro_near
  rw [abs_le] at hm
  have hkp := mul_nonneg hk hp
  rcases lt_trichotomy (k * p) 1 with h | h | h
  · have h0 : k * p = 0 := by omega
    have h0 : (k * p : ℚ) = 0 := by exact_mod_cast h0
    refine ⟨fun hc => absurd (hc.trans h2) ?_, fun hc => by omega⟩
    rw [h0, not_le]
    have := hm.1
    norm_num at this ⊢
    linarith
  · refine ⟨fun _ => by omega, fun _ => ?_⟩
    obtain ⟨rfl, rfl⟩ : k = 1 ∧ p = 1 := by
      have hk1 : k ∣ 1 := ⟨p, h.symm⟩
      have hp1 : p ∣ 1 := ⟨k, by rw [← h]; ring⟩
      exact ⟨Int.eq_one_of_dvd_one hk hk1, Int.eq_one_of_dvd_one hp hp1⟩
    decide +kernel
  · refine ⟨fun _ => by omega, fun _ => le_trans ?_ h1⟩
    have hq : (2 : ℚ) ≤ k * p := by exact_mod_cast h
    have e : (1 : ℚ) - 1 / 2 ^ 50 ≤ (1 - 1 / 2 ^ 53) ^ 5 := by norm_num
    have := hm.2
    nlinarith

/-- `s` compares with every unit as `d` milliseconds do -/
def Compares (s : ℚ) (d : Int) : Prop :=
  (YEAR_SECOND ≤ s ↔ unitMs .yearly ≤ d) ∧ (MONTH_SECOND ≤ s ↔ unitMs .monthly ≤ d) ∧ (WEEK_SECOND ≤ s ↔ unitMs .weekly ≤ d) ∧
    (DAY_SECOND ≤ s ↔ unitMs .daily ≤ d) ∧ (HOUR_SECOND ≤ s ↔ unitMs .hourly ≤ d) ∧ (MINUTE_SECOND ≤ s ↔ unitMs .minutely ≤ d) ∧
    (1 ≤ s ↔ unitMs .secondly ≤ d) ∧ (MICRO_SECOND ≤ s ↔ unitMs .microsecond ≤ d)

theorem longest_of_compares {s : ℚ} {d : Int} (h : Compares s d) (hd : 0 ≤ d) : LongestUnit d (patternBySecond s) := by
  obtain ⟨h1, h2, h3, h4, h5, h6, h7, h8⟩ := h
  unfold patternBySecond
  simp only [h1, h2, h3, h4, h5, h6, h7, h8]
  repeat' split
  all_goals
    refine ⟨by assumption, ?_⟩
    intro g
    cases g <;> simp only [unitMs] at * <;> omega

theorem compares_exact {s : ℚ} {d : Int} (h : s = d / 1000) (h1000 : d % 1000 = 0) : Compares s d := by
  obtain ⟨e, rfl⟩ : ∃ e, d = 1000 * e := ⟨d / 1000, by omega⟩
  have hs : s = e := by rw [h]; push_cast; field_simp
  subst hs
  have hc : ∀ (u : ℚ) (z : Int), u = z → (u ≤ (e : ℚ) ↔ 1000 * z ≤ 1000 * e) := by
    rintro u z rfl
    rw [Int.cast_le]
    omega
  have hm : MICRO_SECOND ≤ (e : ℚ) ↔ 1 ≤ 1000 * e := by
    have hn := micro_near
    rw [abs_le] at hn
    constructor
    · intro hc
      have : (0 : ℚ) < e := by
        have := hn.1
        norm_num at this
        linarith
      have : 0 < e := by exact_mod_cast this
      omega
    · intro hc
      have h1 : (1 : ℚ) ≤ e := by exact_mod_cast (show 1 ≤ e by omega)
      have := hn.2
      norm_num at this
      linarith
  refine ⟨hc _ 29030400 ?_, hc _ 2419200 ?_, hc _ 604800 ?_, hc _ 86400 ?_, hc _ 3600 ?_, hc _ 60 ?_, hc _ 1 ?_, hm⟩ <;>
    norm_num [YEAR_SECOND, MONTH_SECOND, WEEK_SECOND, DAY_SECOND, HOUR_SECOND, MINUTE_SECOND]

theorem compares_ms {k p : Int} (hk : 0 ≤ k) (hp : 0 ≤ p) : Compares (msProduct k p) (k * p) := by
  refine ⟨?_, ?_, ?_, ?_, ?_, ?_, ?_, msProduct_micro hk hp⟩
  · exact msProduct_reaches hk hp splits_year (by norm_num [YEAR_SECOND]) (by norm_num)
  · exact msProduct_reaches hk hp splits_month (by norm_num [MONTH_SECOND]) (by norm_num)
  · exact msProduct_reaches hk hp splits_week (by norm_num [WEEK_SECOND]) (by norm_num)
  · exact msProduct_reaches hk hp splits_day (by norm_num [DAY_SECOND]) (by norm_num)
  · exact msProduct_reaches hk hp splits_hour (by norm_num [HOUR_SECOND]) (by norm_num)
  · exact msProduct_reaches hk hp splits_minute (by norm_num [MINUTE_SECOND]) (by norm_num)
  · exact msProduct_reaches hk hp splits_second (by norm_num) (by norm_num)

/-- **C99**. The pattern of a period is the longest unit that fits into it, with months of 28 days and years of 336 days, also where the code
computes in doubles (granularity 'microsecond', whose unit is a millisecond). -/
theorem C99_pattern {period : Int} (hp : 0 ≤ period) (g : Granularity) {interval : Option Int} (hi : 0 ≤ interval.getD 1) :
    LongestUnit (period * interval.getD 1 * unitMs g) (periodPattern period g interval) := by
  unfold periodPattern
  generalize interval.getD 1 = k at hi
  have hd : 0 ≤ period * k * unitMs g := mul_nonneg (mul_nonneg hp hi) (by cases g <;> decide)
  refine longest_of_compares ?_ hd
  cases g
  case none => exact compares_exact (by simp [periodSeconds, unitMs]) (by simp [unitMs])
  case microsecond =>
    have := compares_ms hi hp
    rw [show period * k * unitMs .microsecond = k * period by simp only [unitMs]; ring]
    exact this
  all_goals
    refine compares_exact ?_ ?_
    · simp only [periodSeconds, unitMs, YEAR_SECOND, MONTH_SECOND, WEEK_SECOND, DAY_SECOND, HOUR_SECOND, MINUTE_SECOND]
      push_cast
      ring
    · simp only [unitMs]
      omega

/-- **C99** (one point). A period of one point at interval 1 has the pattern of its granularity. -/
theorem C99_unit (g : Granularity) : periodPattern 1 g none = g := by
  cases g <;> decide +kernel

theorem longest_mono {d e : Int} (h : d ≤ e) {a b : Granularity} (ha : LongestUnit d a) (hb : LongestUnit e b) : unitMs a ≤ unitMs b :=
  hb.2 a (ha.1.trans h)

/-- **C99** (longer periods). A longer period never has a shorter pattern. -/
theorem C99_monotone {p q : Int} (hp : 0 ≤ p) (h : p ≤ q) (g : Granularity) {interval : Option Int} (hi : 0 ≤ interval.getD 1) :
    unitMs (periodPattern p g interval) ≤ unitMs (periodPattern q g interval) := by
  refine longest_mono ?_ (C99_pattern hp g hi) (C99_pattern (hp.trans h) g hi)
  have : 0 ≤ unitMs g := by cases g <;> decide
  gcongr

/-- **C99** (common cases): 24 hours, 7 days, 4 weeks, 12 months; 30 days are a month and 48 weeks a year; half an hour in steps of
25 milliseconds -/
example : periodPattern 24 .hourly none = .daily ∧ periodPattern 7 .daily (some 1) = .weekly ∧ periodPattern 4 .weekly none = .monthly ∧
    periodPattern 12 .monthly none = .yearly ∧ periodPattern 30 .daily none = .monthly ∧ periodPattern 48 .weekly none = .yearly ∧
    periodPattern 72000 .microsecond (some 25) = .minutely := by decide +kernel
end Verif
