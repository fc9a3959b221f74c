import Verif.Uni.DateUtils
import Verif.Spec.Double
import Mathlib.Tactic.Linarith
import Mathlib.Tactic.Ring
import Mathlib.Tactic.FieldSimp
import Mathlib.Tactic.NormNum
import Mathlib.Tactic.Positivity

/-!
# Facts about rounding to IEEE doubles
-/

namespace Verif

theorem roundHalfEven_error {q : ℚ} (hq : 0 ≤ q) : |(roundHalfEven q : ℚ) - q| ≤ 1 / 2 := by
  have hf : (0 : Int) ≤ q.floor := Rat.le_floor_iff.2 (by simpa using hq)
  have e : ((q.floor.toNat : Nat) : ℚ) = ((q.floor : Int) : ℚ) := by
    have : ((q.floor.toNat : Nat) : Int) = q.floor := Int.toNat_of_nonneg hf
    exact_mod_cast this
  have h1 : ((q.floor : Int) : ℚ) ≤ q := Rat.floor_le q
  have h2 : q < ((q.floor : Int) : ℚ) + 1 := by exact_mod_cast Rat.lt_floor_add_one q
  unfold roundHalfEven
  simp only [e]
  rw [abs_le]
  split
  · rw [e]; constructor <;> linarith
  · split
    · push_cast; rw [e]; constructor <;> linarith
    · split
      · rw [e]; constructor <;> linarith
      · push_cast; rw [e]; constructor <;> linarith

theorem roundHalfEven_near_nat {q : ℚ} {n : Nat} (hq : 0 ≤ q) (h : |q - n| < 1 / 2) : roundHalfEven q = n := by
  have h1 := roundHalfEven_error hq
  rw [abs_le] at h1
  rw [abs_lt] at h
  have h2 : (roundHalfEven q : ℚ) < n + 1 := by linarith
  have h3 : (n : ℚ) < roundHalfEven q + 1 := by linarith
  have h2 : roundHalfEven q < n + 1 := by exact_mod_cast h2
  have h3 : n < roundHalfEven q + 1 := by exact_mod_cast h3
  omega

theorem roundHalfEven_natCast (n : Nat) : roundHalfEven (n : ℚ) = n :=
  roundHalfEven_near_nat (by positivity) (by simp)

/-- the exponent `roundDouble` computes -/
theorem roundDouble_exponent {q : ℚ} (hq : 0 < q) :
    ∃ e : Int, (2 : ℚ) ^ e ≤ q ∧ q < (2 : ℚ) ^ (e + 1) ∧
      roundDouble q = roundHalfEven (q / (2 : ℚ) ^ (e - 52)) * (2 : ℚ) ^ (e - 52) := by
  have hn : 0 < q.num := Rat.num_pos.2 hq
  have hnn : q.num.toNat ≠ 0 := by omega
  have hnum : ((q.num.toNat : Nat) : Int) = q.num := Int.toNat_of_nonneg hn.le
  have hd : (0 : ℚ) < q.den := by exact_mod_cast q.pos
  have hqe : q = (q.num : ℚ) / q.den := (Rat.num_div_den q).symm
  have a1 : (2 : ℚ) ^ Nat.log2 q.num.toNat ≤ (q.num : ℚ) := by
    have h1 : 2 ^ Nat.log2 q.num.toNat ≤ q.num.toNat := Nat.log2_self_le hnn
    have h3 : ((2 ^ Nat.log2 q.num.toNat : Nat) : Int) ≤ q.num := by rw [← hnum]; exact_mod_cast h1
    exact_mod_cast h3
  have a2 : (q.num : ℚ) < (2 : ℚ) ^ (Nat.log2 q.num.toNat + 1) := by
    have h1 : q.num.toNat < 2 ^ (Nat.log2 q.num.toNat + 1) := Nat.lt_log2_self
    have h3 : q.num < ((2 ^ (Nat.log2 q.num.toNat + 1) : Nat) : Int) := by
      conv_lhs => rw [← hnum]
      exact_mod_cast h1
    exact_mod_cast h3
  have b1 : (2 : ℚ) ^ Nat.log2 q.den ≤ (q.den : ℚ) := by exact_mod_cast Nat.log2_self_le q.den_nz
  have b2 : (q.den : ℚ) < 2 ^ (Nat.log2 q.den + 1) := by
    have h2 : q.den < 2 ^ (Nat.log2 q.den + 1) := Nat.lt_log2_self
    exact_mod_cast h2
  have low : (2 : ℚ) ^ (((Nat.log2 q.num.toNat : Int) - (Nat.log2 q.den : Int)) - 1) ≤ q := by
    have e : (2 : ℚ) ^ (((Nat.log2 q.num.toNat : Int) - (Nat.log2 q.den : Int)) - 1) =
        2 ^ Nat.log2 q.num.toNat / 2 ^ (Nat.log2 q.den + 1) := by
      rw [sub_sub, zpow_sub₀ (by norm_num)]
      norm_cast
    rw [e, hqe, div_le_div_iff₀ (by positivity) hd, ← hqe]
    exact mul_le_mul a1 b2.le hd.le (le_trans (by positivity) a1)
  have high : q < (2 : ℚ) ^ (((Nat.log2 q.num.toNat : Int) - (Nat.log2 q.den : Int)) + 1) := by
    have e : (2 : ℚ) ^ (((Nat.log2 q.num.toNat : Int) - (Nat.log2 q.den : Int)) + 1) =
        2 ^ (Nat.log2 q.num.toNat + 1) / 2 ^ Nat.log2 q.den := by
      rw [show ((Nat.log2 q.num.toNat : Int) - (Nat.log2 q.den : Int)) + 1 =
        ((Nat.log2 q.num.toNat + 1 : Nat) : Int) - (Nat.log2 q.den : Int) by push_cast; ring, zpow_sub₀ (by norm_num)]
      norm_cast
    rw [e, hqe, div_lt_div_iff₀ hd (by positivity), ← hqe]
    exact mul_lt_mul a2 b1 (by positivity) (by positivity)
  unfold roundDouble
  rw [if_neg (not_le.2 hq)]
  simp only
  refine ⟨_, ?_, ?_, rfl⟩
  · split
    · assumption
    · exact low
  · split
    · exact high
    · rename_i h
      rw [sub_add_cancel]
      exact not_le.1 h

theorem exponent_unique {q : ℚ} {e f : Int} (h1 : (2 : ℚ) ^ e ≤ q) (h2 : q < (2 : ℚ) ^ (e + 1)) (h3 : (2 : ℚ) ^ f ≤ q)
    (h4 : q < (2 : ℚ) ^ (f + 1)) : e = f := by
  have a := (zpow_lt_zpow_iff_right₀ (by norm_num : (1 : ℚ) < 2)).1 (lt_of_le_of_lt h1 h4)
  have b := (zpow_lt_zpow_iff_right₀ (by norm_num : (1 : ℚ) < 2)).1 (lt_of_le_of_lt h3 h2)
  omega

theorem roundDouble_of_exponent {q : ℚ} {e : Int} (h1 : (2 : ℚ) ^ e ≤ q) (h2 : q < (2 : ℚ) ^ (e + 1)) :
    roundDouble q = roundHalfEven (q / (2 : ℚ) ^ (e - 52)) * (2 : ℚ) ^ (e - 52) := by
  obtain ⟨f, a, b, c⟩ := roundDouble_exponent (lt_of_lt_of_le (zpow_pos (by norm_num) _) h1)
  rw [exponent_unique h1 h2 a b, c]

/-- relative error of one rounding to double precision -/
theorem roundDouble_error {q : ℚ} (hq : 0 < q) : |roundDouble q - q| ≤ q * (1 / 2 ^ 53) := by
  obtain ⟨e, he, -, h⟩ := roundDouble_exponent hq
  rw [h]
  have hu : (0 : ℚ) < (2 : ℚ) ^ (e - 52) := zpow_pos (by norm_num) _
  have hr := roundHalfEven_error (q := q / (2 : ℚ) ^ (e - 52)) (div_nonneg hq.le hu.le)
  have h3 : (roundHalfEven (q / (2 : ℚ) ^ (e - 52)) : ℚ) * (2 : ℚ) ^ (e - 52) - q =
      ((roundHalfEven (q / (2 : ℚ) ^ (e - 52)) : ℚ) - q / (2 : ℚ) ^ (e - 52)) * (2 : ℚ) ^ (e - 52) := by
    field_simp
  rw [h3, abs_mul, abs_of_pos hu]
  have h4 : (2 : ℚ) ^ (e - 52) = (2 : ℚ) ^ e * (1 / 2 ^ 52) := by
    rw [zpow_sub₀ (by norm_num)]; norm_num [div_eq_mul_inv]
  calc _ ≤ 1 / 2 * (2 : ℚ) ^ (e - 52) := mul_le_mul_of_nonneg_right hr hu.le
    _ = (2 : ℚ) ^ e * (1 / 2 ^ 53) := by rw [h4]; ring
    _ ≤ _ := mul_le_mul_of_nonneg_right he (by positivity)

theorem roundSigned_error (q : ℚ) : |roundSigned q - q| ≤ |q| * (1 / 2 ^ 53) := by
  unfold roundSigned
  split
  · rename_i h
    have := roundDouble_error (q := -q) (by linarith)
    rw [abs_of_neg h, show -roundDouble (-q) - q = -(roundDouble (-q) - -q) by ring, abs_neg]
    exact this
  · rename_i h
    rcases (not_lt.1 h).eq_or_lt with h | h
    · subst h
      simp [roundDouble]
    · rw [abs_of_pos h]
      exact roundDouble_error h

theorem roundDouble_nat {n : Nat} (hn : n < 2 ^ 53) : roundDouble n = n := by
  rcases Nat.eq_zero_or_pos n with rfl | hp
  · simp [roundDouble]
  · have hq : (0 : ℚ) < n := by exact_mod_cast hp
    obtain ⟨e, h1, h2, h⟩ := roundDouble_exponent hq
    have he : e ≤ 52 := by
      have : (2 : ℚ) ^ e < (2 : ℚ) ^ (53 : Int) := lt_of_le_of_lt h1 (by exact_mod_cast hn)
      have := (zpow_lt_zpow_iff_right₀ (by norm_num : (1 : ℚ) < 2)).1 this
      omega
    obtain ⟨k, hk⟩ : ∃ k : Nat, e - 52 = -(k : Int) := ⟨(52 - e).toNat, by omega⟩
    have e1 : (2 : ℚ) ^ (e - 52) = 1 / 2 ^ k := by rw [hk, zpow_neg, zpow_natCast, one_div]
    rw [h, e1, div_div_eq_mul_div, div_one, show (n : ℚ) * 2 ^ k = ((n * 2 ^ k : Nat) : ℚ) by push_cast; rfl,
      roundHalfEven_natCast]
    push_cast
    field_simp

theorem roundSigned_int {z : Int} (h : |z| < 2 ^ 53) : roundSigned z = z := by
  rw [abs_lt] at h
  unfold roundSigned
  split
  · rename_i hz
    have hz : z < 0 := by exact_mod_cast hz
    obtain ⟨n, hn⟩ : ∃ n : Nat, -z = n := ⟨(-z).toNat, by omega⟩
    have e : (-(z : ℚ)) = (n : ℚ) := by exact_mod_cast hn
    rw [e, roundDouble_nat (by omega), ← e, neg_neg]
  · rename_i hz
    have hz : 0 ≤ z := by
      have := not_lt.1 hz
      exact_mod_cast this
    obtain ⟨n, hn⟩ : ∃ n : Nat, z = n := ⟨z.toNat, by omega⟩
    subst hn
    exact roundDouble_nat (by omega)

/-- a rounded quotient of whole numbers is whole only if the quotient is, and then exact -/
theorem roundSigned_quot {a b z : Int} (hb : 0 < b) (ha : |a| < 2 ^ 53) :
    roundSigned ((a : ℚ) / b) = z ↔ a = z * b := by
  have hbq : (0 : ℚ) < b := by exact_mod_cast hb
  constructor
  · intro h
    have h1 := roundSigned_error ((a : ℚ) / b)
    rw [h, abs_div, abs_of_pos hbq] at h1
    have h2 : |((z * b - a : Int) : ℚ)| ≤ |(a : ℚ)| * (1 / 2 ^ 53) := by
      have e : ((z * b - a : Int) : ℚ) = ((z : ℚ) - a / b) * b := by push_cast; field_simp
      rw [e, abs_mul, abs_of_pos hbq]
      calc _ ≤ |(a : ℚ)| / b * (1 / 2 ^ 53) * b := mul_le_mul_of_nonneg_right h1 hbq.le
        _ = _ := by field_simp
    have h3 : |(a : ℚ)| < 2 ^ 53 := by exact_mod_cast ha
    have h4 : |((z * b - a : Int) : ℚ)| < 1 := lt_of_le_of_lt h2 (by
      rw [mul_one_div, div_lt_one (by positivity)]
      exact h3)
    have h5 : |z * b - a| < 1 := by exact_mod_cast h4
    have := Int.abs_lt_one_iff.1 h5
    omega
  · intro h
    have e : (a : ℚ) / b = (z : ℚ) := by
      rw [h]; push_cast; field_simp
    rw [e]
    apply roundSigned_int
    refine lt_of_le_of_lt ?_ ha
    rw [h, abs_mul]
    have : 1 ≤ |b| := Int.one_le_abs (by omega)
    nlinarith [abs_nonneg z]

/-- multiples of 512 below 2^62 are doubles -/
theorem roundSigned_nanos {k : Int} (h : |k * 1000000000| < 2 ^ 62) :
    roundSigned ((k * 1000000000 : Int) : ℚ) = ((k * 1000000000 : Int) : ℚ) := by
  have pos : ∀ n : Nat, n * 1000000000 < 2 ^ 62 → roundDouble ((n * 1000000000 : Nat) : ℚ) = (n * 1000000000 : Nat) := by
    intro n hn
    rcases Nat.eq_zero_or_pos n with rfl | hp
    · simp [roundDouble]
    · have hq : (0 : ℚ) < ((n * 1000000000 : Nat) : ℚ) := by exact_mod_cast Nat.mul_pos hp (by norm_num)
      obtain ⟨e, h1, h2, h⟩ := roundDouble_exponent hq
      have he : e < 62 := by
        have : (2 : ℚ) ^ e < (2 : ℚ) ^ (62 : Int) := lt_of_le_of_lt h1 (by exact_mod_cast hn)
        exact (zpow_lt_zpow_iff_right₀ (by norm_num : (1 : ℚ) < 2)).1 this
      have hu : (0 : ℚ) < (2 : ℚ) ^ (e - 52) := zpow_pos (by norm_num) _
      obtain ⟨m, hm⟩ : ∃ m : Nat, 61 - e = m := ⟨(61 - e).toNat, by omega⟩
      have hdiv : (((n * 1000000000 : Nat) : ℚ)) / (2 : ℚ) ^ (e - 52) = ((n * 1953125 * 2 ^ m : Nat) : ℚ) := by
        rw [div_eq_iff hu.ne', show e - 52 = 9 - (m : Int) by omega, zpow_sub₀ (by norm_num), zpow_natCast]
        push_cast
        have : (2 : ℚ) ^ m ≠ 0 := by positivity
        field_simp
        norm_num
      rw [h, hdiv, roundHalfEven_natCast, ← hdiv, div_mul_cancel₀ _ hu.ne']
  rw [abs_lt] at h
  unfold roundSigned
  split
  · rename_i hz
    have hz : k * 1000000000 < 0 := by exact_mod_cast hz
    obtain ⟨n, hn⟩ : ∃ n : Nat, -k = n := ⟨(-k).toNat, by omega⟩
    have e : -((k * 1000000000 : Int) : ℚ) = ((n * 1000000000 : Nat) : ℚ) := by
      have : (-(k : ℚ)) = n := by exact_mod_cast hn
      push_cast
      rw [← this]; ring
    rw [e, pos n (by omega), ← e, neg_neg]
  · rename_i hz
    have hz : 0 ≤ k * 1000000000 := by
      have := not_lt.1 hz
      exact_mod_cast this
    obtain ⟨n, hn⟩ : ∃ n : Nat, k = n := ⟨k.toNat, by omega⟩
    subst hn
    have := pos n (by omega)
    push_cast at this ⊢
    exact this

/-- rounding to six decimals -/
theorem timestamp_us (ns : Int) :
    ∃ us : Int, timestampFloat ns = roundSigned ((us : ℚ) / 1000000) ∧
      |(us : ℚ) - roundSigned (roundSigned ns / 1000000000) * 1000000| ≤ 1 / 2 := by
  unfold timestampFloat
  simp only
  refine ⟨_, rfl, ?_⟩
  generalize roundSigned (roundSigned ns / 1000000000) = v
  split
  · rename_i h
    have := roundHalfEven_error (q := -v * 1000000) (mul_nonneg (by linarith) (by norm_num))
    push_cast
    rw [show -(roundHalfEven (-v * 1000000) : ℚ) - v * 1000000 = -((roundHalfEven (-v * 1000000) : ℚ) -
      -v * 1000000) by ring, abs_neg]
    exact this
  · rename_i h
    exact_mod_cast roundHalfEven_error (q := v * 1000000) (mul_nonneg (not_lt.1 h) (by norm_num))

/-- an integer less than one away -/
theorem int_eq_of_near {a b : Int} (h : |(a : ℚ) - b| < 1) : a = b := by
  have h : |a - b| < 1 := by exact_mod_cast h
  have := Int.abs_lt_one_iff.1 h
  omega

/-- the timestamp of a whole second before the year 2116 is exact -/
theorem timestampFloat_second {k : Int} (h : |k * 1000000000| < 2 ^ 62) : timestampFloat (k * 1000000000) = k := by
  obtain ⟨us, h1, h2⟩ := timestamp_us (k * 1000000000)
  have hk : |k| < 2 ^ 53 := by rw [abs_lt] at h ⊢; omega
  rw [roundSigned_nanos h, show ((k * 1000000000 : Int) : ℚ) / 1000000000 = k by push_cast; ring, roundSigned_int hk] at h2
  have e : us = k * 1000000 := int_eq_of_near (by push_cast; linarith)
  rw [h1, e, show (((k * 1000000 : Int) : ℚ) / 1000000) = (k : ℚ) by push_cast; ring, roundSigned_int hk]

/-- a timestamp is accurate to four microseconds -/
theorem timestampFloat_error {ns : Int} (h : |ns| ≤ 2 ^ 63) : |timestampFloat ns - ns / 1000000000| ≤ 4 / 1000000 := by
  obtain ⟨us, h1, h2⟩ := timestamp_us ns
  have h3 := roundSigned_error ((us : ℚ) / 1000000)
  rw [← h1] at h3
  have h4 : |(ns : ℚ)| ≤ 2 ^ 63 := by exact_mod_cast h
  have a1 := roundSigned_error (ns : ℚ)
  set u := roundSigned (ns : ℚ)
  have a1' : |u - ns| ≤ 2 ^ 63 * (1 / 2 ^ 53) := le_trans a1 (mul_le_mul_of_nonneg_right h4 (by positivity))
  have a2 := roundSigned_error (u / 1000000000)
  set v := roundSigned (u / 1000000000)
  rw [abs_le] at h2 h4 a1'
  have a3 : |u / 1000000000| ≤ 9300000000 := by
    rw [abs_le]
    constructor <;> linarith [a1'.1, a1'.2, h4.1, h4.2]
  have a2' : |v - u / 1000000000| ≤ 9300000000 * (1 / 2 ^ 53) := le_trans a2 (mul_le_mul_of_nonneg_right a3 (by positivity))
  rw [abs_le] at a2' a3
  have h5 : |(us : ℚ) / 1000000| ≤ 9400000000 := by
    rw [abs_le]
    constructor <;> linarith [h2.1, h2.2, a2'.1, a2'.2, a3.1, a3.2]
  have h6 : |timestampFloat ns - (us : ℚ) / 1000000| ≤ 9400000000 * (1 / 2 ^ 53) :=
    le_trans h3 (mul_le_mul_of_nonneg_right h5 (by positivity))
  rw [abs_le] at h6 ⊢
  constructor <;> linarith [h2.1, h2.2, h6.1, h6.2, a2'.1, a2'.2, a1'.1, a1'.2]

/-- milliseconds between November 2004 and January 2038 survive -/
theorem timestampMs_exact {m : Int} (h1 : 2 ^ 40 < m) (h2 : m < 2 ^ 31 * 1000) : timestampMs (m * 1000000) = m := by
  obtain ⟨n, rfl⟩ : ∃ n : Nat, m = n := ⟨m.toNat, by omega⟩
  have q1 : (2 : ℚ) ^ 40 + 1 ≤ n := by exact_mod_cast h1
  have q2 : (n : ℚ) < 2 ^ 31 * 1000 := by exact_mod_cast h2
  obtain ⟨us, e1, e2⟩ := timestamp_us ((n : Int) * 1000000)
  have a1 := roundSigned_error (((n : Int) * 1000000 : Int) : ℚ)
  set u := roundSigned (((n : Int) * 1000000 : Int) : ℚ)
  push_cast at a1
  rw [abs_of_nonneg (a := (n : ℚ) * 1000000) (by positivity), abs_le] at a1
  have u1 : 0 < u := by linarith [a1.1]
  have a2 := roundSigned_error (u / 1000000000)
  set v := roundSigned (u / 1000000000)
  rw [abs_of_pos (a := u / 1000000000) (by positivity), abs_le] at a2
  rw [abs_le] at e2
  have e3 : us = n * 1000 := by
    apply int_eq_of_near
    push_cast
    rw [abs_lt]
    constructor <;> linarith [e2.1, e2.2, a1.1, a1.2, a2.1, a2.2]
  have e4 : timestampFloat ((n : Int) * 1000000) = roundDouble ((n : ℚ) / 1000) := by
    rw [e1, e3]
    push_cast
    rw [show (n : ℚ) * 1000 / 1000000 = n / 1000 by ring]
    unfold roundSigned
    rw [if_neg (not_lt.2 (by positivity))]
  -- the seconds lie between 2^30 and 2^31
  have e5 := roundDouble_of_exponent (q := (n : ℚ) / 1000) (e := 30) (by norm_num; linarith) (by norm_num; linarith)
  have e6 := roundHalfEven_error (q := (n : ℚ) / 1000 / (2 : ℚ) ^ ((30 : Int) - 52)) (by positivity)
  set z := roundHalfEven ((n : ℚ) / 1000 / (2 : ℚ) ^ ((30 : Int) - 52))
  have hu : (2 : ℚ) ^ ((30 : Int) - 52) = 1 / 4194304 := by norm_num
  rw [hu] at e5 e6
  rw [abs_le] at e6
  set x := roundDouble ((n : ℚ) / 1000)
  have x1 : (n : ℚ) / 1000 - 1 / 8388608 ≤ x := by rw [e5]; linarith [e6.1]
  have x2 : x ≤ (n : ℚ) / 1000 + 1 / 8388608 := by rw [e5]; linarith [e6.2]
  -- times 1000 the error stays below half a unit in the last place
  have xp : 0 < x := by linarith
  have e7 : roundSigned (x * 1000) = n := by
    unfold roundSigned
    rw [if_neg (not_lt.2 (by positivity))]
    have f := roundDouble_of_exponent (q := x * 1000) (e := 40) (by norm_num; linarith) (by norm_num; linarith)
    have hv : (2 : ℚ) ^ ((40 : Int) - 52) = 1 / 4096 := by norm_num
    rw [hv] at f
    have g : roundHalfEven (x * 1000 / (1 / 4096)) = n * 4096 := by
      refine roundHalfEven_near_nat (by positivity) ?_
      push_cast
      rw [abs_lt]
      constructor <;> linarith
    rw [f, g]
    push_cast
    ring
  unfold timestampMs
  simp only
  rw [e4, e7]
  rw [if_neg (not_lt.2 (by positivity))]
  exact Rat.floor_intCast n

/-! ### Order -/

theorem roundHalfEven_mono {a b : ℚ} (ha : 0 ≤ a) (h : a ≤ b) : roundHalfEven a ≤ roundHalfEven b := by
  have h1 : a.floor ≤ b.floor := Rat.floor_monotone h
  have hf : (0 : Int) ≤ a.floor := Rat.le_floor_iff.2 (by simpa using ha)
  rcases h1.lt_or_eq with h1 | h1
  · have : a.floor.toNat + 1 ≤ b.floor.toNat := by omega
    unfold roundHalfEven
    dsimp only
    split_ifs <;> omega
  · unfold roundHalfEven
    dsimp only
    rw [h1]
    split_ifs <;> first | omega | (exfalso; linarith)

/-- no natural number is nearer -/
theorem roundHalfEven_nearest {q : ℚ} (hq : 0 ≤ q) (n : Nat) : |(roundHalfEven q : ℚ) - q| ≤ |(n : ℚ) - q| := by
  by_contra hc
  push Not at hc
  have h1 := roundHalfEven_error hq
  have := roundHalfEven_near_nat hq (n := n) (by rw [abs_sub_comm]; linarith)
  rw [this] at hc
  exact lt_irrefl _ hc

/-- ties go to the even number -/
theorem roundHalfEven_le_even {q : ℚ} {n : Nat} (hq : 0 ≤ q) (hn : Even n) (h : q ≤ n + 1 / 2) : roundHalfEven q ≤ n := by
  have h1 := roundHalfEven_mono hq h
  refine h1.trans (le_of_eq ?_)
  have hf : ((n : ℚ) + 1 / 2).floor = n := by
    refine le_antisymm (Int.lt_add_one_iff.1 (Rat.floor_lt_iff.2 (by push_cast; linarith))) (Rat.le_floor_iff.2 (by push_cast; linarith))
  unfold roundHalfEven
  simp only [hf, Int.toNat_natCast]
  have : n % 2 = 0 := Nat.even_iff.1 hn
  norm_num [this]

theorem two_zpow_split (a b : Int) : (2 : ℚ) ^ a = (2 : ℚ) ^ (a - b) * (2 : ℚ) ^ b := by
  rw [← zpow_add₀ (by norm_num)]
  congr 1
  ring

theorem roundDouble_ge {q : ℚ} {e : Int} (h : (2 : ℚ) ^ e ≤ q) : (2 : ℚ) ^ e ≤ roundDouble q := by
  have hq : 0 < q := lt_of_lt_of_le (zpow_pos (by norm_num) _) h
  obtain ⟨f, h1, h2, h3⟩ := roundDouble_exponent hq
  have hef : e ≤ f := by
    have := (zpow_lt_zpow_iff_right₀ (by norm_num : (1 : ℚ) < 2)).1 (lt_of_le_of_lt h h2)
    omega
  refine le_trans (zpow_le_zpow_right₀ (by norm_num) hef) ?_
  have hu : (0 : ℚ) < (2 : ℚ) ^ (f - 52) := zpow_pos (by norm_num) _
  have h4 : ((2 ^ 52 : Nat) : ℚ) ≤ q / (2 : ℚ) ^ (f - 52) := by
    rw [le_div_iff₀ hu]
    have := two_zpow_split f (f - 52)
    rw [show f - (f - 52) = 52 by ring] at this
    rw [this] at h1
    push_cast
    exact_mod_cast h1
  have h5 := roundHalfEven_mono (by positivity) h4
  rw [roundHalfEven_natCast] at h5
  rw [h3, two_zpow_split f (f - 52), show f - (f - 52) = 52 by ring]
  refine mul_le_mul_of_nonneg_right ?_ hu.le
  exact_mod_cast h5

theorem roundDouble_le {q : ℚ} {e : Int} (hq : 0 < q) (h : q ≤ (2 : ℚ) ^ e) : roundDouble q ≤ (2 : ℚ) ^ e := by
  rcases h.lt_or_eq with h | rfl
  · obtain ⟨f, h1, h2, h3⟩ := roundDouble_exponent hq
    have hef : f + 1 ≤ e := by
      have := (zpow_lt_zpow_iff_right₀ (by norm_num : (1 : ℚ) < 2)).1 (lt_of_le_of_lt h1 h)
      omega
    refine le_trans ?_ (zpow_le_zpow_right₀ (by norm_num) hef)
    have hu : (0 : ℚ) < (2 : ℚ) ^ (f - 52) := zpow_pos (by norm_num) _
    have h4 : q / (2 : ℚ) ^ (f - 52) ≤ ((2 ^ 53 : Nat) : ℚ) := by
      rw [div_le_iff₀ hu]
      have := two_zpow_split (f + 1) (f - 52)
      rw [show f + 1 - (f - 52) = 53 by ring] at this
      rw [this] at h2
      push_cast
      exact_mod_cast h2.le
    have h5 := roundHalfEven_mono (by positivity) h4
    rw [roundHalfEven_natCast] at h5
    rw [h3, two_zpow_split (f + 1) (f - 52), show f + 1 - (f - 52) = 53 by ring]
    refine mul_le_mul_of_nonneg_right ?_ hu.le
    exact_mod_cast h5
  · rw [roundDouble_of_exponent le_rfl (zpow_lt_zpow_right₀ (by norm_num) (by omega))]
    have hu : (2 : ℚ) ^ (e - 52) ≠ 0 := (zpow_pos (by norm_num) _).ne'
    rw [two_zpow_split e (e - 52), mul_div_assoc, div_self hu, mul_one, show e - (e - 52) = 52 by ring]
    have : roundHalfEven ((2 : ℚ) ^ (52 : Int)) = 2 ^ 52 := by
      rw [show (2 : ℚ) ^ (52 : Int) = ((2 ^ 52 : Nat) : ℚ) by norm_num]
      exact roundHalfEven_natCast _
    rw [this]
    norm_num

theorem roundDouble_nonneg (q : ℚ) : 0 ≤ roundDouble q := by
  unfold roundDouble
  split
  · exact le_rfl
  · exact mul_nonneg (by positivity) (zpow_pos (by norm_num) _).le

theorem roundDouble_mono {a b : ℚ} (h : a ≤ b) : roundDouble a ≤ roundDouble b := by
  rcases le_or_gt a 0 with ha | ha
  · have : roundDouble a = 0 := by unfold roundDouble; rw [if_pos ha]
    rw [this]
    exact roundDouble_nonneg b
  · have hb : 0 < b := lt_of_lt_of_le ha h
    obtain ⟨e, e1, e2, e3⟩ := roundDouble_exponent ha
    obtain ⟨f, f1, f2, f3⟩ := roundDouble_exponent hb
    have hef : e ≤ f := by
      have := (zpow_lt_zpow_iff_right₀ (by norm_num : (1 : ℚ) < 2)).1 (lt_of_le_of_lt e1 (lt_of_le_of_lt h f2))
      omega
    rcases hef.lt_or_eq with hlt | rfl
    · refine (roundDouble_le ha e2.le).trans (le_trans (zpow_le_zpow_right₀ (by norm_num) (by omega)) (roundDouble_ge f1))
    · rw [e3, f3]
      have hu : (0 : ℚ) < (2 : ℚ) ^ (e - 52) := zpow_pos (by norm_num) _
      refine mul_le_mul_of_nonneg_right ?_ hu.le
      exact_mod_cast roundHalfEven_mono (by positivity) (div_le_div_of_nonneg_right h hu.le)

/-- rounding to doubles respects the order -/
theorem roundSigned_mono {a b : ℚ} (h : a ≤ b) : roundSigned a ≤ roundSigned b := by
  unfold roundSigned
  split_ifs with ha hb hb
  · exact neg_le_neg (roundDouble_mono (by linarith))
  · exact le_trans (neg_nonpos.2 (roundDouble_nonneg _)) (roundDouble_nonneg _)
  · linarith
  · exact roundDouble_mono h

theorem roundSigned_le_int {q : ℚ} {z : Int} (hz : |z| < 2 ^ 53) (h : q ≤ z) : roundSigned q ≤ z := by
  have := roundSigned_mono h
  rwa [roundSigned_int hz] at this

theorem int_le_roundSigned {q : ℚ} {z : Int} (hz : |z| < 2 ^ 53) (h : (z : ℚ) ≤ q) : (z : ℚ) ≤ roundSigned q := by
  have := roundSigned_mono h
  rwa [roundSigned_int hz] at this

theorem roundSigned_pos {q : ℚ} (h : 0 ≤ q) : roundSigned q = roundDouble q := by
  unfold roundSigned
  rw [if_neg (not_lt.2 h)]

/-- no double is nearer: `r` is a double -/
theorem roundDouble_nearest {q r : ℚ} (hq : 0 < q) (hr : 0 < r) (hd : roundDouble r = r) :
    |roundDouble q - q| ≤ |r - q| := by
  obtain ⟨e, e1, e2, e3⟩ := roundDouble_exponent hq
  obtain ⟨f, f1, f2, f3⟩ := roundDouble_exponent hr
  have hu : (0 : ℚ) < (2 : ℚ) ^ (e - 52) := zpow_pos (by norm_num) _
  -- the distance to any multiple of the last place
  have key : ∀ n : Nat, |roundDouble q - q| ≤ |(n : ℚ) * (2 : ℚ) ^ (e - 52) - q| := by
    intro n
    have h1 := roundHalfEven_nearest (q := q / (2 : ℚ) ^ (e - 52)) (by positivity) n
    have h2 := mul_le_mul_of_nonneg_right h1 hu.le
    rw [← abs_of_pos hu, ← abs_mul, ← abs_mul, abs_of_pos hu, sub_mul, sub_mul, div_mul_cancel₀ _ hu.ne'] at h2
    rwa [e3]
  rcases lt_or_ge f e with hlt | hge
  · -- `r` is below the binade of `q`
    have h1 := key (2 ^ 52)
    have h2 : ((2 ^ 52 : Nat) : ℚ) * (2 : ℚ) ^ (e - 52) = (2 : ℚ) ^ e := by
      rw [two_zpow_split e (e - 52), show e - (e - 52) = 52 by ring]
      norm_num
    rw [h2, abs_sub_comm ((2 : ℚ) ^ e), abs_of_nonneg (a := q - (2 : ℚ) ^ e) (by linarith)] at h1
    have h3 : r < (2 : ℚ) ^ e := lt_of_lt_of_le f2 (zpow_le_zpow_right₀ (by norm_num) (by omega))
    rw [abs_sub_comm r q, abs_of_nonneg (a := q - r) (by linarith)]
    linarith
  · -- `r` is a multiple of the last place of `q`
    have h1 := key (roundHalfEven (r / (2 : ℚ) ^ (f - 52)) * 2 ^ (f - e).toNat)
    have h2 : ((roundHalfEven (r / (2 : ℚ) ^ (f - 52)) * 2 ^ (f - e).toNat : Nat) : ℚ) * (2 : ℚ) ^ (e - 52) = r := by
      push_cast
      rw [mul_assoc]
      have : (2 : ℚ) ^ (f - e).toNat * (2 : ℚ) ^ (e - 52) = (2 : ℚ) ^ (f - 52) := by
        rw [← zpow_natCast, ← zpow_add₀ (by norm_num)]
        congr 1
        omega
      rw [this, ← f3, hd]
    rwa [h2] at h1

/-! ### Products and quotients of counts -/

/-- a double product never passes the next integer -/
theorem dmul_le_ceil {n : Nat} {r : ℚ} (h : |⌈(n : ℚ) * r⌉| < 2 ^ 53) : (dmul n r).ceil ≤ ⌈(n : ℚ) * r⌉ :=
  Rat.ceil_le_iff.2 (roundSigned_le_int h (Int.le_ceil _))

theorem dmul_floor_le {n : Nat} {r : ℚ} (h : |⌈(n : ℚ) * r⌉| < 2 ^ 53) : (dmul n r).floor ≤ ⌈(n : ℚ) * r⌉ := by
  have h1 : dmul n r ≤ (⌈(n : ℚ) * r⌉ : Int) := roundSigned_le_int h (Int.le_ceil _)
  have h2 : (((dmul n r).floor : Int) : ℚ) ≤ dmul n r := Rat.floor_le _
  exact_mod_cast h2.trans h1

/-- a rational less than half a unit in the last place away from a natural number rounds to it -/
theorem roundDouble_near_nat {x : ℚ} {e : Int} {z : Nat} (h1 : (2 : ℚ) ^ e ≤ x) (h2 : x < (2 : ℚ) ^ (e + 1)) (he : e ≤ 52)
    (h : |x - z| < (2 : ℚ) ^ (e - 53)) : roundDouble x = z := by
  have hu : (0 : ℚ) < (2 : ℚ) ^ (e - 52) := zpow_pos (by norm_num) _
  obtain ⟨k, hk⟩ : ∃ k : Nat, e - 52 = -(k : Int) := ⟨(52 - e).toNat, by omega⟩
  have e1 : (2 : ℚ) ^ (e - 52) = 1 / 2 ^ k := by rw [hk, zpow_neg, zpow_natCast, one_div]
  have e2 : (2 : ℚ) ^ (e - 53) = 1 / 2 * (2 : ℚ) ^ (e - 52) := by
    rw [show e - 53 = -1 + (e - 52) by ring, zpow_add₀ (by norm_num)]
    norm_num
  have hx : 0 ≤ x := (zpow_pos (by norm_num : (0 : ℚ) < 2) e).le.trans h1
  rw [roundDouble_of_exponent h1 h2, roundHalfEven_near_nat (n := z * 2 ^ k) (div_nonneg hx hu.le)]
  · rw [e1]
    push_cast
    field_simp
  · have : x / (2 : ℚ) ^ (e - 52) - (z * 2 ^ k : Nat) = (x - z) / (2 : ℚ) ^ (e - 52) := by
      rw [e1]
      push_cast
      field_simp
    rw [this, abs_div, abs_of_pos hu, div_lt_iff₀ hu, ← e2]
    exact h

/-- the whole part of a count times a decimal literal `a/b`, multiplied in doubles: it is exact if the double `d` of the literal is above
`a/b`, or below it by less than a quarter of a unit in the last place of 1 relative to `d` -/
theorem dmul_literal {n a b : Nat} {d : ℚ} (hb : 0 < b) (hab : a ≤ b) (hd : 0 < d) (hlow : (a : ℚ) / b - d < d / 2 ^ 54)
    (hhigh : d - a / b ≤ 1 / 2 ^ 53) (hn : n * b < 2 ^ 50) : ⌊dmul n d⌋ = ((a * n / b : Nat) : Int) := by
  have hbq : (0 : ℚ) < b := by exact_mod_cast hb
  rcases Nat.eq_zero_or_pos n with rfl | hn0
  · simp [dmul, roundSigned, roundDouble]
  have hnq : (0 : ℚ) < n := by exact_mod_cast hn0
  have hnb : (n : ℚ) * b < 2 ^ 50 := by exact_mod_cast hn
  have hb1 : (1 : ℚ) ≤ b := by exact_mod_cast hb
  have hn1 : (n : ℚ) < 2 ^ 50 := by nlinarith
  have habq : (a : ℚ) ≤ b := by exact_mod_cast hab
  have hx : 0 < (n : ℚ) * d := by positivity
  have hdm : dmul n d = roundDouble (n * d) := roundSigned_pos hx.le
  set z := a * n / b with hz
  have hzlow : (z : ℚ) ≤ n * (a / b) := by
    have : z * b ≤ a * n := Nat.div_mul_le_self _ _
    have : (z : ℚ) * b ≤ a * n := by exact_mod_cast this
    rw [mul_div_assoc', le_div_iff₀ hbq]
    linarith
  have hzhigh : (n : ℚ) * (a / b) + 1 / b ≤ z + 1 := by
    have : a * n + 1 ≤ (z + 1) * b := by
      have := Nat.lt_div_mul_add (a := a * n) hb
      rw [← hz] at this
      nlinarith
    have : (a : ℚ) * n + 1 ≤ (z + 1) * b := by exact_mod_cast this
    rw [mul_div_assoc', ← add_div, div_le_iff₀ hbq]
    linarith
  have hd1 : (a : ℚ) / b ≤ 1 := (div_le_one hbq).2 habq
  have hzn : z ≤ n := by
    have : (z : ℚ) ≤ n := hzlow.trans (mul_le_of_le_one_right hnq.le hd1)
    exact_mod_cast this
  rw [hdm, Int.floor_eq_iff]
  have hnat : n < 2 ^ 50 := by exact_mod_cast hn1
  constructor
  · push_cast
    by_cases hc : (z : ℚ) ≤ n * d
    · have := roundDouble_mono hc
      rwa [roundDouble_nat (by omega)] at this
    · -- below the whole number by a rounding of the literal only
      obtain ⟨e, h1, h2, -⟩ := roundDouble_exponent hx
      have he : e ≤ 52 := by
        have : (2 : ℚ) ^ e < (2 : ℚ) ^ (50 : Int) := by
          refine lt_of_le_of_lt h1 ?_
          have : (n : ℚ) * d < z := not_le.1 hc
          have : (z : ℚ) ≤ n := by exact_mod_cast hzn
          have : ((2 : ℚ) ^ (50 : Int)) = 2 ^ 50 := by norm_num
          rw [this]
          linarith
        have := (zpow_lt_zpow_iff_right₀ (by norm_num : (1 : ℚ) < 2)).1 this
        omega
      rw [roundDouble_near_nat h1 h2 he]
      have hlt : (n : ℚ) * d < z := not_le.1 hc
      rw [abs_of_neg (by linarith)]
      have h3 : (z : ℚ) - n * d ≤ n * (a / b - d) := by
        rw [mul_sub]
        linarith
      have h4 : (n : ℚ) * (a / b - d) < n * (d / 2 ^ 54) := by gcongr
      have h5 : (n : ℚ) * (d / 2 ^ 54) < (2 : ℚ) ^ (e + 1) / 2 ^ 54 := by
        rw [mul_div_assoc']
        gcongr
      have h6 : (2 : ℚ) ^ (e + 1) / 2 ^ 54 = (2 : ℚ) ^ (e - 53) := by
        rw [show e + 1 = (e - 53) + (54 : Nat) by push_cast; ring, zpow_add₀ (by norm_num), zpow_natCast]
        field_simp
      linarith
  · push_cast
    have h1 := (abs_le.1 (roundDouble_error hx)).2
    have h2 : (n : ℚ) * d ≤ n * (a / b) + n / 2 ^ 53 := by
      have := mul_le_mul_of_nonneg_left hhigh hnq.le
      rw [mul_sub] at this
      linarith [show (n : ℚ) * (1 / 2 ^ 53) = n / 2 ^ 53 by ring]
    have h3 : (n : ℚ) * (a / b) ≤ n := mul_le_of_le_one_right hnq.le hd1
    have h4 : (n : ℚ) / 2 ^ 53 < 1 / b * (1 / 8) := by
      rw [div_lt_iff₀ (by positivity), show (1 : ℚ) / b * (1 / 8) * 2 ^ 53 = 2 ^ 50 / b by ring, lt_div_iff₀ hbq]
      exact hnb
    have h5 : (n : ℚ) * d * (1 / 2 ^ 53) ≤ 1 / b * (1 / 4) := by
      have : (n : ℚ) * d ≤ 2 * n := by
        have : (n : ℚ) / 2 ^ 53 ≤ n := div_le_self hnq.le (by norm_num)
        linarith
      calc (n : ℚ) * d * (1 / 2 ^ 53) ≤ 2 * (n : ℚ) * (1 / 2 ^ 53) := by gcongr
        _ = 2 * ((n : ℚ) / 2 ^ 53) := by ring
        _ ≤ _ := by linarith
    have : (0 : ℚ) < 1 / b := by positivity
    linarith

/-- `x` within half a unit in the last place above an integer rounds to it -/
theorem roundDouble_tie {x y : ℚ} {k : Nat} (hk : k < 2 ^ 52) (hy : 0 < y) (hyk : y < k) (hr : roundDouble y = k)
    (hx : x - k ≤ k - y) : roundDouble x ≤ k := by
  rcases le_or_gt x k with h | h
  · have := roundDouble_mono h
    rwa [roundDouble_nat (by omega)] at this
  · have hk0 : (0 : ℚ) < k := hy.trans hyk
    obtain ⟨e, e1, e2, e3⟩ := roundDouble_exponent hy
    obtain ⟨f, f1, f2, f3⟩ := roundDouble_exponent hk0
    have hef : e ≤ f := by
      have := (zpow_lt_zpow_iff_right₀ (by norm_num : (1 : ℚ) < 2)).1 (lt_of_le_of_lt e1 (hyk.trans f2))
      omega
    have hue : (0 : ℚ) < (2 : ℚ) ^ (e - 52) := zpow_pos (by norm_num) _
    have huf : (0 : ℚ) < (2 : ℚ) ^ (f - 52) := zpow_pos (by norm_num) _
    -- the distance of y
    have h1 : (k : ℚ) - y ≤ 1 / 2 * (2 : ℚ) ^ (f - 52) := by
      have h2 := roundHalfEven_error (q := y / (2 : ℚ) ^ (e - 52)) (by positivity)
      have h3 := mul_le_mul_of_nonneg_right h2 hue.le
      rw [← abs_of_pos hue, ← abs_mul, abs_of_pos hue, sub_mul, div_mul_cancel₀ _ hue.ne', ← e3, hr] at h3
      have h4 := (abs_le.1 h3).2
      have h5 : (2 : ℚ) ^ (e - 52) ≤ (2 : ℚ) ^ (f - 52) := zpow_le_zpow_right₀ (by norm_num) (by omega)
      linarith
    have hf52 : f < 52 := by
      have : (2 : ℚ) ^ f < (2 : ℚ) ^ (52 : Int) := lt_of_le_of_lt f1 (by exact_mod_cast hk)
      exact (zpow_lt_zpow_iff_right₀ (by norm_num : (1 : ℚ) < 2)).1 this
    -- k is an even number of units
    have hm : ∃ m : Nat, Even m ∧ (k : ℚ) = m * (2 : ℚ) ^ (f - 52) := by
      refine ⟨k * 2 ^ (52 - f).toNat, ?_, ?_⟩
      · rw [show (52 - f).toNat = ((52 - f).toNat - 1) + 1 by omega, pow_succ, ← mul_assoc]
        exact ⟨k * 2 ^ ((52 - f).toNat - 1), by ring⟩
      · push_cast
        rw [mul_assoc, ← zpow_natCast, ← zpow_add₀ (by norm_num)]
        rw [show ((52 - f).toNat : Int) + (f - 52) = 0 by omega]
        simp
    obtain ⟨m, hm, hkm⟩ := hm
    have hm53 : m + 1 ≤ 2 ^ 53 := by
      have h2 := two_zpow_split (f + 1) (f - 52)
      rw [show f + 1 - (f - 52) = 53 by ring] at h2
      rw [hkm, h2] at f2
      have := (mul_lt_mul_iff_left₀ huf).1 f2
      have : m < 2 ^ 53 := by exact_mod_cast this
      omega
    have hx2 : x < (2 : ℚ) ^ (f + 1) := by
      have h2 := two_zpow_split (f + 1) (f - 52)
      rw [show f + 1 - (f - 52) = 53 by ring] at h2
      rw [h2]
      have h3 : ((m : ℚ) + 1) * (2 : ℚ) ^ (f - 52) ≤ (2 : ℚ) ^ (53 : Int) * (2 : ℚ) ^ (f - 52) :=
        mul_le_mul_of_nonneg_right (by exact_mod_cast hm53) huf.le
      rw [add_mul, ← hkm] at h3
      linarith
    rw [roundDouble_of_exponent (f1.trans h.le) hx2]
    have h2 : roundHalfEven (x / (2 : ℚ) ^ (f - 52)) ≤ m := by
      refine roundHalfEven_le_even (div_nonneg (hk0.trans h).le huf.le) hm ?_
      rw [div_le_iff₀ huf, add_mul, ← hkm]
      linarith
    calc (roundHalfEven (x / (2 : ℚ) ^ (f - 52)) : ℚ) * (2 : ℚ) ^ (f - 52) ≤ m * (2 : ℚ) ^ (f - 52) :=
          mul_le_mul_of_nonneg_right (by exact_mod_cast h2) huf.le
      _ = k := hkm.symm

theorem dmul_ddiv_le {n k : Nat} (hn : n ≠ 0) (hk : k < 2 ^ 52) : dmul n (ddiv k n) ≤ k + 1 := by
  have h0 : (0 : ℚ) < n := by exact_mod_cast Nat.pos_of_ne_zero hn
  have h1 := roundSigned_error ((k : ℚ) / n)
  rw [abs_of_nonneg (a := (k : ℚ) / n) (by positivity)] at h1
  have h2 : ddiv k n ≤ (k : ℚ) / n + (k : ℚ) / n * (1 / 2 ^ 53) := by
    have := (abs_le.1 h1).2
    unfold ddiv
    linarith
  have h3 := mul_le_mul_of_nonneg_left h2 h0.le
  rw [mul_add, ← mul_assoc, mul_div_cancel₀ _ h0.ne'] at h3
  have h4 : (k : ℚ) * (1 / 2 ^ 53) ≤ 1 := by
    have : (k : ℚ) < 2 ^ 52 := by exact_mod_cast hk
    linarith
  have := roundSigned_le_int (q := (n : ℚ) * ddiv k n) (z := (k : Int) + 1) (by rw [abs_lt]; omega) (by push_cast; linarith)
  unfold dmul
  push_cast at this
  exact this

/-- one point out of `n` is not rounded up to two -/
theorem dmul_ddiv_one {n : Nat} (hn : n ≠ 0) : dmul n (ddiv 1 n) ≤ 1 := by
  have h0 : (0 : ℚ) < n := by exact_mod_cast Nat.pos_of_ne_zero hn
  have h1 := roundSigned_error (1 / (n : ℚ))
  rw [abs_of_nonneg (a := 1 / (n : ℚ)) (by positivity)] at h1
  have h2 : ddiv 1 n ≤ 1 / (n : ℚ) + 1 / (n : ℚ) * (1 / 2 ^ 53) := by
    have := (abs_le.1 h1).2
    unfold ddiv
    linarith
  have h3 := mul_le_mul_of_nonneg_left h2 h0.le
  rw [mul_add, ← mul_assoc, mul_one_div_cancel h0.ne', one_mul] at h3
  unfold dmul
  rcases le_or_gt ((n : ℚ) * ddiv 1 n) 1 with h | h
  · exact_mod_cast roundSigned_le_int (z := 1) (by norm_num) (by exact_mod_cast h)
  · rw [roundSigned_pos (by linarith), roundDouble_of_exponent (e := 0) (by simpa using h.le) (by norm_num; linarith)]
    have : roundHalfEven ((n : ℚ) * ddiv 1 n / (2 : ℚ) ^ ((0 : Int) - 52)) ≤ 2 ^ 52 := by
      refine roundHalfEven_le_even (div_nonneg (by linarith) (zpow_pos (by norm_num) _).le) ⟨2 ^ 51, by norm_num⟩ ?_
      rw [div_le_iff₀ (zpow_pos (by norm_num) _)]
      norm_num
      linarith
    calc (roundHalfEven ((n : ℚ) * ddiv 1 n / (2 : ℚ) ^ ((0 : Int) - 52)) : ℚ) * (2 : ℚ) ^ ((0 : Int) - 52)
        ≤ ((2 ^ 52 : Nat) : ℚ) * (2 : ℚ) ^ ((0 : Int) - 52) :=
          mul_le_mul_of_nonneg_right (by exact_mod_cast this) (zpow_pos (by norm_num) _).le
      _ = 1 := by norm_num

/-- the share that a double ratio grants, granted again as a share, is not larger than the ratio allows -/
theorem dmul_ddiv_floor {n k : Nat} {r : ℚ} (hn : n ≠ 0) (hr : 0 < r) (hd : roundSigned r = r)
    (hz : |⌈(n : ℚ) * r⌉| < 2 ^ 52) (hk : (k : ℚ) ≤ dmul n r) (hk0 : k ≠ 0) :
    dmul n (ddiv k n) ≤ (⌈(n : ℚ) * r⌉ : Int) := by
  have h0 : (0 : ℚ) < n := by exact_mod_cast Nat.pos_of_ne_zero hn
  have hkq : (0 : ℚ) < k := by exact_mod_cast Nat.pos_of_ne_zero hk0
  have hz' : |⌈(n : ℚ) * r⌉| < 2 ^ 53 := hz.trans (by norm_num)
  have hc : dmul n r ≤ (⌈(n : ℚ) * r⌉ : Int) := roundSigned_le_int hz' (Int.le_ceil _)
  rcases le_or_gt (k : ℚ) (n * r) with h | h
  · have h1 : ddiv k n ≤ r := by
      have := roundSigned_mono (a := (k : ℚ) / n) (b := r) (by rw [div_le_iff₀ h0]; linarith)
      rwa [hd] at this
    exact le_trans (roundSigned_mono (mul_le_mul_of_nonneg_left h1 h0.le)) hc
  · -- the product was rounded up to `k`
    have hnr : 0 < (n : ℚ) * r := mul_pos h0 hr
    have hkc : (⌈(n : ℚ) * r⌉ : Int) = k := by
      have h1 : (k : ℚ) ≤ (⌈(n : ℚ) * r⌉ : Int) := hk.trans hc
      have h2 : ⌈(n : ℚ) * r⌉ ≤ (k : Int) := Int.ceil_le.2 (by push_cast; exact h.le)
      have h3 : (k : Int) ≤ ⌈(n : ℚ) * r⌉ := by exact_mod_cast h1
      omega
    have hk52 : k < 2 ^ 52 := by
      rw [hkc, abs_lt] at hz
      omega
    have heq : roundDouble ((n : ℚ) * r) = k := by
      rw [hkc] at hc
      unfold dmul at hc hk
      rw [roundSigned_pos hnr.le] at hc hk
      exact le_antisymm (by exact_mod_cast hc) hk
    have hdr : roundDouble r = r := by rwa [roundSigned_pos hr.le] at hd
    have hnear := roundDouble_nearest (q := (k : ℚ) / n) (div_pos hkq h0) hr hdr
    have hlt : r < (k : ℚ) / n := by rw [lt_div_iff₀ h0]; linarith
    rw [abs_sub_comm r, abs_of_nonneg (a := (k : ℚ) / n - r) (by linarith)] at hnear
    have h1 := mul_le_mul_of_nonneg_left (abs_le.1 hnear).2 h0.le
    rw [mul_sub, mul_sub, mul_div_cancel₀ _ h0.ne'] at h1
    have h2 := roundDouble_tie hk52 hnr h heq h1
    rw [hkc]
    unfold dmul ddiv
    rw [roundSigned_pos (q := (k : ℚ) / n) (by positivity),
      roundSigned_pos (mul_nonneg h0.le (roundDouble_nonneg _))]
    exact_mod_cast h2

/-! ### The rounding is to a nearest double -/

theorem roundDouble_isDouble (q : ℚ) : Spec.IsDouble (roundDouble q) := by
  rcases le_or_gt q 0 with h | h
  · refine ⟨0, 0, by norm_num, ?_⟩
    unfold roundDouble
    rw [if_pos h]
    simp
  · obtain ⟨e, h1, h2, h3⟩ := roundDouble_exponent h
    refine ⟨roundHalfEven (q / (2 : ℚ) ^ (e - 52)), e - 52, ?_, by rw [h3]; norm_cast⟩
    have hu : (0 : ℚ) < (2 : ℚ) ^ (e - 52) := zpow_pos (by norm_num) _
    have h4 := roundDouble_le h h2.le
    rw [h3, two_zpow_split (e + 1) (e - 52), show e + 1 - (e - 52) = 53 by ring] at h4
    have h5 := (mul_le_mul_iff_left₀ hu).1 h4
    rw [abs_of_nonneg (by positivity)]
    exact_mod_cast h5

theorem roundDouble_of_isDouble {d : ℚ} (h : Spec.IsDouble d) (h0 : 0 < d) : roundDouble d = d := by
  obtain ⟨m, f, hm, rfl⟩ := h
  have huf : (0 : ℚ) < (2 : ℚ) ^ f := zpow_pos (by norm_num) _
  have hm0 : 0 < m := by
    have := pos_of_mul_pos_left h0 huf.le
    exact_mod_cast this
  obtain ⟨n, rfl⟩ : ∃ n : Nat, m = n := ⟨m.toNat, by omega⟩
  obtain ⟨e, h1, h2, h3⟩ := roundDouble_exponent h0
  have hu : (0 : ℚ) < (2 : ℚ) ^ (e - 52) := zpow_pos (by norm_num) _
  rcases le_or_gt (e - 52) f with hle | hgt
  · have e1 : ((n : Int) : ℚ) * (2 : ℚ) ^ f / (2 : ℚ) ^ (e - 52) = ((n * 2 ^ (f - (e - 52)).toNat : Nat) : ℚ) := by
      rw [div_eq_iff hu.ne']
      push_cast
      rw [mul_assoc, ← zpow_natCast (2 : ℚ), ← zpow_add₀ (by norm_num)]
      congr 2
      omega
    rw [h3, e1, roundHalfEven_natCast, ← e1, div_mul_cancel₀ _ hu.ne']
  · -- the significand is 2^53
    have h5 : (n : ℚ) ≤ 2 ^ 53 := by
      rw [abs_of_nonneg (by positivity)] at hm
      exact_mod_cast hm
    have h6 : (2 : ℚ) ^ e ≤ (2 : ℚ) ^ (f + 53) := by
      refine h1.trans ?_
      rw [zpow_add₀ (by norm_num), mul_comm]
      refine mul_le_mul_of_nonneg_left ?_ huf.le
      exact_mod_cast h5
    have h7 := (zpow_le_zpow_iff_right₀ (by norm_num : (1 : ℚ) < 2)).1 h6
    have h8 : e = f + 53 := by omega
    have h9 : ((n : Int) : ℚ) * (2 : ℚ) ^ f = (2 : ℚ) ^ e := by
      refine le_antisymm ?_ h1
      rw [h8, zpow_add₀ (by norm_num), mul_comm]
      refine mul_le_mul_of_nonneg_left ?_ huf.le
      exact_mod_cast h5
    rw [h9]
    exact le_antisymm (roundDouble_le (zpow_pos (by norm_num) _) le_rfl) (roundDouble_ge le_rfl)

theorem isDouble_neg {d : ℚ} (h : Spec.IsDouble d) : Spec.IsDouble (-d) := by
  obtain ⟨m, e, hm, rfl⟩ := h
  exact ⟨-m, e, by rwa [abs_neg], by push_cast; ring⟩

theorem roundDouble_nearest' {q d : ℚ} (hq : 0 ≤ q) (hd : Spec.IsDouble d) : |roundDouble q - q| ≤ |d - q| := by
  rcases hq.eq_or_lt with rfl | hq
  · have : roundDouble 0 = 0 := by unfold roundDouble; rw [if_pos le_rfl]
    rw [this]
    simp
  · rcases le_or_gt d 0 with h | h
    · have h1 := roundDouble_error hq
      have h2 : |d - q| = q - d := by rw [abs_sub_comm, abs_of_nonneg (by linarith)]
      rw [h2]
      have : q * (1 / 2 ^ 53) ≤ q := by
        have : (1 : ℚ) / 2 ^ 53 ≤ 1 := by norm_num
        nlinarith
      linarith
    · exact roundDouble_nearest hq h (roundDouble_of_isDouble hd h)

/-- `roundSigned` is a nearest double -/
theorem roundSigned_nearest (q : ℚ) : Spec.Nearest q (roundSigned q) := by
  unfold roundSigned
  split
  · rename_i h
    refine ⟨isDouble_neg (roundDouble_isDouble _), fun d hd => ?_⟩
    have := roundDouble_nearest' (q := -q) (by linarith) (isDouble_neg hd)
    rw [show -roundDouble (-q) - q = -(roundDouble (-q) - -q) by ring, abs_neg]
    refine this.trans (le_of_eq ?_)
    rw [show -d - -q = -(d - q) by ring, abs_neg]
  · rename_i h
    exact ⟨roundDouble_isDouble _, fun d hd => roundDouble_nearest' (not_lt.1 h) hd⟩

/-- and the identity on doubles -/
theorem roundSigned_isDouble {d : ℚ} (h : Spec.IsDouble d) : roundSigned d = d := by
  have := (roundSigned_nearest d).2 d h
  rw [sub_self, abs_zero] at this
  have := abs_nonpos_iff.1 this
  linarith

end Verif
