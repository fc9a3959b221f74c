import Verif.Spec.DateFormat
import Mathlib.Data.List.Forall2
import Mathlib.Tactic.IntervalCases

/-!
# Reading dates (C105)
-/

namespace Verif

open Spec

/-! ### digits -/

theorem isDig_dig (n : Nat) : isDig (dig n) = true := by
  unfold dig
  have h : n % 10 < 10 := Nat.mod_lt _ (by omega)
  generalize n % 10 = k at h
  interval_cases k <;> decide

theorem digVal_dig (n : Nat) : digVal (dig n) = n % 10 := by
  unfold dig
  have h : n % 10 < 10 := Nat.mod_lt _ (by omega)
  generalize n % 10 = k at h
  interval_cases k <;> decide

theorem dig_lower (n : Nat) : (dig n).toLower = dig n := by
  unfold dig
  have h : n % 10 < 10 := Nat.mod_lt _ (by omega)
  generalize n % 10 = k at h
  interval_cases k <;> decide

theorem dig_white (n : Nat) : (dig n).isWhitespace = false := by
  unfold dig
  have h : n % 10 < 10 := Nat.mod_lt _ (by omega)
  generalize n % 10 = k at h
  interval_cases k <;> decide

theorem dig_ne (n : Nat) {c : Char} (h : isDig c = false) : (dig n == c) = false := by
  rw [beq_eq_false_iff_ne]
  rintro rfl
  rw [isDig_dig] at h
  cases h

theorem isDig_iff {c : Char} : isDig c = true ↔ ∃ n, n < 10 ∧ c = dig n := by
  constructor
  · intro h
    unfold isDig at h
    simp only [Bool.and_eq_true, decide_eq_true_eq] at h
    have h1 : 48 ≤ c.toNat := h.1
    have h2 : c.toNat ≤ 57 := h.2
    refine ⟨c.toNat - 48, by omega, ?_⟩
    unfold dig
    rw [Nat.mod_eq_of_lt (by omega), show 48 + (c.toNat - 48) = c.toNat by omega, Char.ofNat_toNat]
  · rintro ⟨n, -, rfl⟩
    exact isDig_dig n

theorem dig_mod (n : Nat) : dig (n % 10) = dig n := by
  unfold dig
  rw [Nat.mod_mod]

/-! ### shapes -/

def Fits (sh : Shape) (c : Char) : Prop :=
  match sh with
  | .digit => ∃ n, n < 10 ∧ c = dig n
  | .lit l => c = l

theorem shapeMatch_iff {p : List Shape} {s : List Char} : shapeMatch p s = true ↔ List.Forall₂ Fits p s := by
  induction p generalizing s with
  | nil => cases s <;> simp [shapeMatch]
  | cons a p ih =>
    cases s with
    | nil => cases a <;> simp [shapeMatch]
    | cons c s => cases a <;> simp [shapeMatch, ih, Fits, isDig_iff]

theorem forall₂_snoc {α β : Type} {R : α → β → Prop} {p : List α} {a : α} {s : List β} (h : List.Forall₂ R (p ++ [a]) s) :
    ∃ r b, s = r ++ [b] ∧ List.Forall₂ R p r ∧ R a b := by
  induction p generalizing s with
  | nil =>
    cases h with
    | cons h1 h2 =>
      cases h2
      exact ⟨[], _, rfl, .nil, h1⟩
  | cons x p ih =>
    cases h with
    | cons h1 h2 =>
      obtain ⟨r, b, rfl, h3, h4⟩ := ih h2
      exact ⟨_ :: r, b, rfl, .cons h1 h3, h4⟩

theorem reMatch_iff {p : List Shape} {s : List Char} :
    reMatch p s = true ↔ List.Forall₂ Fits p s ∨ ∃ r, s = r ++ ['\n'] ∧ List.Forall₂ Fits p r := by
  unfold reMatch
  rw [Bool.or_eq_true, shapeMatch_iff, shapeMatch_iff]
  refine or_congr_right ⟨?_, ?_⟩
  · intro h
    obtain ⟨r, b, rfl, h1, h2⟩ := forall₂_snoc h
    cases h2
    exact ⟨r, rfl, h1⟩
  · rintro ⟨r, rfl, h⟩
    refine List.rel_append h ?_
    exact .cons rfl .nil

/-! ### directives -/

/-- the rest of the format does not match at a digit -/
def Blocked (p : List Directive) : Prop := ∀ n t rest, formatMatch p t (dig n :: rest) = none

theorem blocked_lit {d : Char} (h : isDig d.toLower = false) (p : List Directive) : Blocked (.lit d :: p) := by
  intro n t rest
  simp only [formatMatch, directiveMatch, dig_lower, dig_ne n h]
  rfl

theorem blocked_space (p : List Directive) : Blocked (.space :: p) := by
  intro n t rest
  simp [formatMatch, directiveMatch, dig_white]

theorem two_lemma {ok2 : Nat → Nat → Bool} {ok1 : Nat → Bool} {a b : Nat} {rest : List Char} {α : Type} {F : Nat × List Char → Option α}
    (h : F (a % 10, dig b :: rest) = none) :
    (twoOrOne ok2 ok1 (dig a :: dig b :: rest)).findSome? F = if ok2 (a % 10) (b % 10) then F (10 * (a % 10) + b % 10, rest) else none := by
  simp only [twoOrOne, isDig_dig, digVal_dig, Bool.true_and]
  cases hx : F (10 * (a % 10) + b % 10, rest) <;> cases ok2 (a % 10) (b % 10) <;> cases ok1 (a % 10) <;> simp [List.findSome?, h, hx]

theorem match_month {p : List Directive} (hp : Blocked p) (t : Civil) (a b : Nat) (rest : List Char) :
    formatMatch (.month :: p) t (dig a :: dig b :: rest) =
      if 1 ≤ 10 * (a % 10) + b % 10 ∧ 10 * (a % 10) + b % 10 ≤ 12 then formatMatch p { t with month := 10 * (a % 10) + b % 10 } rest else none := by
  simp only [formatMatch, directiveMatch, List.findSome?_map]
  rw [two_lemma (by simp only [Function.comp]; exact hp ..)]
  refine if_congr ?_ rfl rfl
  simp only [Bool.or_eq_true, Bool.and_eq_true, beq_iff_eq, decide_eq_true_eq]
  omega

theorem match_day {p : List Directive} (hp : Blocked p) (t : Civil) (a b : Nat) (rest : List Char) :
    formatMatch (.day :: p) t (dig a :: dig b :: rest) =
      if 1 ≤ 10 * (a % 10) + b % 10 ∧ 10 * (a % 10) + b % 10 ≤ 31 then formatMatch p { t with day := 10 * (a % 10) + b % 10 } rest else none := by
  have hs : spaceDigit (dig a :: dig b :: rest) = [] := by
    have := dig_ne a (c := ' ') (by decide)
    generalize dig a = x at this
    unfold spaceDigit
    split
    · rename_i h
      cases h
      simp at this
    · rfl
  simp only [formatMatch, directiveMatch, List.findSome?_map]
  rw [hs, List.append_nil, two_lemma (by simp only [Function.comp]; exact hp ..)]
  refine if_congr ?_ rfl rfl
  simp only [Bool.or_eq_true, Bool.and_eq_true, beq_iff_eq, decide_eq_true_eq]
  omega

theorem match_hour {p : List Directive} (hp : Blocked p) (t : Civil) (a b : Nat) (rest : List Char) :
    formatMatch (.hour :: p) t (dig a :: dig b :: rest) =
      if 10 * (a % 10) + b % 10 ≤ 23 then formatMatch p { t with hour := 10 * (a % 10) + b % 10 } rest else none := by
  simp only [formatMatch, directiveMatch, List.findSome?_map]
  rw [two_lemma (by simp only [Function.comp]; exact hp ..)]
  refine if_congr ?_ rfl rfl
  simp only [Bool.or_eq_true, Bool.and_eq_true, beq_iff_eq, decide_eq_true_eq]
  omega

theorem match_minute {p : List Directive} (hp : Blocked p) (t : Civil) (a b : Nat) (rest : List Char) :
    formatMatch (.minute :: p) t (dig a :: dig b :: rest) =
      if 10 * (a % 10) + b % 10 ≤ 59 then formatMatch p { t with minute := 10 * (a % 10) + b % 10 } rest else none := by
  simp only [formatMatch, directiveMatch, List.findSome?_map]
  rw [two_lemma (by simp only [Function.comp]; exact hp ..)]
  refine if_congr ?_ rfl rfl
  simp only [decide_eq_true_eq]
  omega

theorem match_second {p : List Directive} (hp : Blocked p) (t : Civil) (a b : Nat) (rest : List Char) :
    formatMatch (.second :: p) t (dig a :: dig b :: rest) =
      if 10 * (a % 10) + b % 10 ≤ 61 then formatMatch p { t with second := 10 * (a % 10) + b % 10 } rest else none := by
  simp only [formatMatch, directiveMatch, List.findSome?_map]
  rw [two_lemma (by simp only [Function.comp]; exact hp ..)]
  refine if_congr ?_ rfl rfl
  simp only [Bool.or_eq_true, Bool.and_eq_true, beq_iff_eq, decide_eq_true_eq]
  omega

/-- the last directive of a format takes two digits if they are in range, else one -/
theorem match_minute_end (t : Civil) (a b : Nat) (rest : List Char) :
    formatMatch [.minute] t (dig a :: dig b :: rest) =
      if 10 * (a % 10) + b % 10 ≤ 59 then some ({ t with minute := 10 * (a % 10) + b % 10 }, rest)
      else some ({ t with minute := a % 10 }, dig b :: rest) := by
  simp only [formatMatch, directiveMatch, List.findSome?_map, twoOrOne, isDig_dig, digVal_dig, Bool.true_and]
  by_cases h : 10 * (a % 10) + b % 10 ≤ 59
  · have : a % 10 ≤ 5 := by omega
    simp [h, this]
  · have : ¬ a % 10 ≤ 5 := by omega
    simp [h, this]

theorem match_second_end (t : Civil) (a b : Nat) (rest : List Char) :
    formatMatch [.second] t (dig a :: dig b :: rest) =
      if 10 * (a % 10) + b % 10 ≤ 61 then some ({ t with second := 10 * (a % 10) + b % 10 }, rest)
      else some ({ t with second := a % 10 }, dig b :: rest) := by
  simp only [formatMatch, directiveMatch, List.findSome?_map, twoOrOne, isDig_dig, digVal_dig, Bool.true_and]
  by_cases h : 10 * (a % 10) + b % 10 ≤ 61
  · have : (a % 10 = 6 ∧ b % 10 ≤ 1) ∨ a % 10 ≤ 5 := by omega
    simp [h, this]
  · have : ¬ ((a % 10 = 6 ∧ b % 10 ≤ 1) ∨ a % 10 ≤ 5) := by omega
    simp [h, this]

theorem match_year4 (p : List Directive) (t : Civil) (a b c d : Nat) (rest : List Char) :
    formatMatch (.year4 :: p) t (dig a :: dig b :: dig c :: dig d :: rest) =
      formatMatch p { t with year := 1000 * (a % 10) + 100 * (b % 10) + 10 * (c % 10) + d % 10 } rest := by
  simp [formatMatch, directiveMatch, isDig_dig, digVal_dig]

theorem match_year2 (p : List Directive) (t : Civil) (a b : Nat) (rest : List Char) :
    formatMatch (.year2 :: p) t (dig a :: dig b :: rest) =
      formatMatch p { t with year := if 10 * (a % 10) + b % 10 ≤ 68 then 2000 + (10 * (a % 10) + b % 10) else 1900 + (10 * (a % 10) + b % 10) }
        rest := by
  simp [formatMatch, directiveMatch, isDig_dig, digVal_dig]

theorem match_lit (d : Char) (p : List Directive) (t : Civil) (rest : List Char) :
    formatMatch (.lit d :: p) t (d :: rest) = formatMatch p t rest := by
  simp [formatMatch, directiveMatch]

theorem match_space (p : List Directive) (t : Civil) (n : Nat) (rest : List Char) :
    formatMatch (.space :: p) t (' ' :: dig n :: rest) = formatMatch p t (dig n :: rest) := by
  have : Char.isWhitespace ' ' = true := by decide
  simp [formatMatch, directiveMatch, dig_white, this]

/-! ### whole formats -/

/-- the fields fit into their columns -/
structure TimeBounded (t : Civil) : Prop where
  year : t.year < 10000
  month : t.month < 100
  day : t.day < 100
  hour : t.hour < 100
  minute : t.minute < 100
  second : t.second < 100

theorem valid_iff (t : Civil) : t.valid = true ↔ RealTime t := by
  have hm : 1 ≤ t.month → t.month ≤ 12 → daysInMonth t.year t.month = (monthDays t.year t.month : Nat) := by
    intro h1 h2
    have hl : isLeap t.year = true ↔ (t.year % 400 = 0 ∨ (t.year % 4 = 0 ∧ t.year % 100 ≠ 0)) := by
      unfold isLeap
      simp only [Bool.and_eq_true, Bool.or_eq_true, decide_eq_true_eq]
      omega
    unfold daysInMonth monthDays
    simp only [hl]
    generalize t.month = m at *
    interval_cases m <;> simp
  unfold Civil.valid
  simp only [Bool.and_eq_true, decide_eq_true_eq]
  constructor
  · rintro ⟨⟨⟨⟨⟨⟨⟨⟨h1, h2⟩, h3⟩, h4⟩, h5⟩, h6⟩, h7⟩, h8⟩, h9⟩
    rw [hm h3 h4] at h6
    exact ⟨⟨h1, h2⟩, ⟨h3, h4⟩, ⟨h5, by exact_mod_cast h6⟩, h7, h8, h9⟩
  · rintro ⟨⟨h1, h2⟩, ⟨h3, h4⟩, ⟨h5, h6⟩, h7, h8, h9⟩
    refine ⟨⟨⟨⟨⟨⟨⟨⟨h1, h2⟩, h3⟩, h4⟩, h5⟩, ?_⟩, h7⟩, h8⟩, h9⟩
    rw [hm h3 h4]
    exact_mod_cast h6

theorem real_bounded {t : Civil} (h : RealTime t) : TimeBounded t := by
  obtain ⟨⟨h1, h2⟩, ⟨h3, h4⟩, ⟨h5, h6⟩, h7, h8, h9⟩ := h
  have : monthDays t.year t.month ≤ 31 := by
    unfold monthDays
    split <;> (try split) <;> omega
  exact ⟨by omega, by omega, by omega, by omega, by omega, by omega⟩

theorem two_val {n : Nat} (h : n < 100) : 10 * (n / 10 % 10) + n % 10 = n := by omega

theorem four_val {n : Nat} (h : n < 10000) : 1000 * (n / 1000 % 10) + 100 * (n / 100 % 10) + 10 * (n / 10 % 10) + n % 10 = n := by omega

theorem match_date {T : Civil} (hT : TimeBounded T) {p : List Directive} (hp : Blocked p) (t : Civil) (rest : List Char) :
    formatMatch (fmtDate ++ p) t (writeDate T ++ rest) =
      if (1 ≤ T.month ∧ T.month ≤ 12) ∧ (1 ≤ T.day ∧ T.day ≤ 31) then
        formatMatch p { t with year := T.year, month := T.month, day := T.day } rest else none := by
  simp only [fmtDate, writeDate, pad4, pad2, List.cons_append, List.nil_append]
  rw [match_year4, match_lit, match_month (blocked_lit (by decide) _), match_lit, match_day hp]
  simp only [two_val hT.month, two_val hT.day, four_val hT.year]
  by_cases h1 : 1 ≤ T.month ∧ T.month ≤ 12 <;> by_cases h2 : 1 ≤ T.day ∧ T.day ≤ 31 <;> simp [h1, h2]

theorem match_hm {T : Civil} (hT : TimeBounded T) {p : List Directive} (hp : Blocked p) (t : Civil) (rest : List Char) :
    formatMatch (fmtTime ++ p) t (writeHM T ++ rest) =
      if T.hour ≤ 23 ∧ T.minute ≤ 59 then formatMatch p { t with hour := T.hour, minute := T.minute } rest else none := by
  simp only [fmtTime, writeHM, pad2, List.cons_append, List.nil_append]
  rw [match_hour (blocked_lit (by decide) _), match_lit, match_minute hp]
  simp only [two_val hT.hour, two_val hT.minute]
  by_cases h1 : T.hour ≤ 23 <;> by_cases h2 : T.minute ≤ 59 <;> simp [h1, h2]

theorem match_hm_end {T : Civil} (hT : TimeBounded T) (t : Civil) (rest : List Char) :
    formatMatch fmtTime t (writeHM T ++ rest) =
      if T.hour ≤ 23 then
        (if T.minute ≤ 59 then some ({ t with hour := T.hour, minute := T.minute }, rest)
          else some ({ t with hour := T.hour, minute := T.minute / 10 % 10 }, dig T.minute :: rest))
      else none := by
  simp only [fmtTime, writeHM, pad2, List.cons_append, List.nil_append]
  rw [match_hour (blocked_lit (by decide) _), match_lit, match_minute_end]
  simp only [two_val hT.hour, two_val hT.minute]

theorem day_le {t : Civil} (h : RealTime t) : t.day ≤ 31 := by
  have : monthDays t.year t.month ≤ 31 := by
    unfold monthDays
    split <;> (try split) <;> omega
  have := h.day.2
  omega

/-- separators: 'T', or a space -/
def IsSep (D : Directive) (c : Char) : Prop := (D = .lit 'T' ∧ c = 'T') ∨ (D = .space ∧ c = ' ')

theorem match_sep {D : Directive} {c : Char} (h : IsSep D c) (p : List Directive) (t : Civil) (n : Nat) (rest : List Char) :
    formatMatch (D :: p) t (c :: dig n :: rest) = formatMatch p t (dig n :: rest) := by
  rcases h with ⟨rfl, rfl⟩ | ⟨rfl, rfl⟩
  · exact match_lit ..
  · exact match_space ..

theorem sep_blocked {D : Directive} {c : Char} (h : IsSep D c) (p : List Directive) : Blocked (D :: p) := by
  rcases h with ⟨rfl, rfl⟩ | ⟨rfl, rfl⟩
  · exact blocked_lit (by decide) _
  · exact blocked_space _

open Classical in
/-- reading `YYYY-MM-DD?HH:MM:SS` followed by anything -/
theorem strptime_seconds {T : Civil} (hT : TimeBounded T) {D : Directive} {c : Char} (hD : IsSep D c) (tail : List Char) :
    strptime (fmtDate ++ [D] ++ fmtTime ++ [.lit ':', .second]) (writeDate T ++ [c] ++ writeHMS T ++ tail) =
      if tail = [] ∧ RealTime T then .ok T else .error .valueError := by
  have e1 : fmtDate ++ [D] ++ fmtTime ++ [.lit ':', .second] = fmtDate ++ (D :: (fmtTime ++ [.lit ':', .second])) := by simp
  have e2 : writeDate T ++ [c] ++ writeHMS T ++ tail = writeDate T ++ (c :: (writeHM T ++ (':' :: (pad2 T.second ++ tail)))) := by
    simp [writeHMS]
  have e3 : writeHM T ++ (':' :: (pad2 T.second ++ tail)) = dig (T.hour / 10) :: (dig T.hour :: ([':'] ++ pad2 T.minute) ++ (':' :: (pad2 T.second ++ tail))) := by
    simp [writeHM, pad2]
  unfold strptime
  rw [e1, e2, match_date hT (sep_blocked hD _), e3, match_sep hD, ← e3, match_hm hT (blocked_lit (by decide) _), match_lit]
  simp only [pad2, List.cons_append, List.nil_append]
  rw [match_second_end]
  simp only [two_val hT.second]
  by_cases hR : RealTime T
  · have h1 := hR.month
    have h2 : 1 ≤ T.day ∧ T.day ≤ 31 := ⟨hR.day.1, day_le hR⟩
    have h3 := hR.clock
    rw [if_pos ⟨h1, h2⟩, if_pos ⟨h3.1, h3.2.1⟩, if_pos (by omega)]
    have hv := (valid_iff T).2 hR
    cases tail with
    | nil =>
      simp only [true_and, hR, if_true]
      rw [if_pos hv]
    | cons x xs => simp
  · have hno : ¬ (tail = [] ∧ RealTime T) := fun h => hR h.2
    rw [if_neg hno]
    by_cases g1 : (1 ≤ T.month ∧ T.month ≤ 12) ∧ 1 ≤ T.day ∧ T.day ≤ 31
    · rw [if_pos g1]
      by_cases g2 : T.hour ≤ 23 ∧ T.minute ≤ 59
      · rw [if_pos g2]
        by_cases g3 : T.second ≤ 61
        · rw [if_pos g3]
          cases tail with
          | nil =>
            simp only
            rw [if_neg]
            rw [valid_iff]
            exact hR
          | cons x xs => rfl
        · rw [if_neg g3]
      · rw [if_neg g2]
    · rw [if_neg g1]

open Classical in
/-- reading `YYYY-MM-DDTHH:MM:SSZ` followed by anything -/
theorem strptime_zulu {T : Civil} (hT : TimeBounded T) (tail : List Char) :
    strptime (fmtDate ++ [.lit 'T'] ++ fmtTime ++ [.lit ':', .second, .lit 'Z']) (writeDate T ++ ['T'] ++ writeHMS T ++ ['Z'] ++ tail) =
      if tail = [] ∧ RealTime T then .ok T else .error .valueError := by
  have e1 : fmtDate ++ [.lit 'T'] ++ fmtTime ++ [.lit ':', .second, .lit 'Z'] =
      fmtDate ++ (.lit 'T' :: (fmtTime ++ [.lit ':', .second, .lit 'Z'])) := by simp
  have e2 : writeDate T ++ ['T'] ++ writeHMS T ++ ['Z'] ++ tail =
      writeDate T ++ ('T' :: (writeHM T ++ (':' :: (pad2 T.second ++ ('Z' :: tail))))) := by
    simp [writeHMS]
  unfold strptime
  rw [e1, e2, match_date hT (blocked_lit (by decide) _), match_lit, match_hm hT (blocked_lit (by decide) _), match_lit]
  simp only [pad2, List.cons_append, List.nil_append]
  rw [match_second (blocked_lit (by decide) _), match_lit]
  simp only [two_val hT.second, formatMatch]
  by_cases hR : RealTime T
  · have h1 := hR.month
    have h2 : 1 ≤ T.day ∧ T.day ≤ 31 := ⟨hR.day.1, day_le hR⟩
    have h3 := hR.clock
    rw [if_pos ⟨h1, h2⟩, if_pos ⟨h3.1, h3.2.1⟩, if_pos (by omega)]
    have hv := (valid_iff T).2 hR
    cases tail with
    | nil =>
      simp only [true_and, hR, if_true]
      rw [if_pos hv]
    | cons x xs => simp
  · have hno : ¬ (tail = [] ∧ RealTime T) := fun h => hR h.2
    rw [if_neg hno]
    by_cases g1 : (1 ≤ T.month ∧ T.month ≤ 12) ∧ 1 ≤ T.day ∧ T.day ≤ 31
    · rw [if_pos g1]
      by_cases g2 : T.hour ≤ 23 ∧ T.minute ≤ 59
      · rw [if_pos g2]
        by_cases g3 : T.second ≤ 61
        · rw [if_pos g3]
          cases tail with
          | nil =>
            simp only
            rw [if_neg]
            rw [valid_iff]
            exact hR
          | cons x xs => rfl
        · rw [if_neg g3]
      · rw [if_neg g2]
    · rw [if_neg g1]

open Classical in
/-- reading `YYYY-MM-DD HH:MM` followed by anything -/
theorem strptime_minutes {T : Civil} (hT : TimeBounded T) (hs : T.second = 0) (tail : List Char) :
    strptime (fmtDate ++ [.space] ++ fmtTime) (writeDate T ++ [' '] ++ writeHM T ++ tail) =
      if tail = [] ∧ RealTime T then .ok T else .error .valueError := by
  have e1 : fmtDate ++ [.space] ++ fmtTime = fmtDate ++ (.space :: fmtTime) := by simp
  have e2 : writeDate T ++ [' '] ++ writeHM T ++ tail = writeDate T ++ (' ' :: (writeHM T ++ tail)) := by simp
  have e3 : writeHM T ++ tail = dig (T.hour / 10) :: (dig T.hour :: ([':'] ++ pad2 T.minute) ++ tail) := by
    simp [writeHM, pad2]
  have e4 : ({ ({} : Civil) with year := T.year, month := T.month, day := T.day, hour := T.hour, minute := T.minute } : Civil) = T := by
    cases T
    simp_all
  unfold strptime
  rw [e1, e2, match_date hT (blocked_space _), e3, match_space, ← e3, match_hm_end hT]
  simp only at e4 ⊢
  rw [e4]
  by_cases hR : RealTime T
  · have h1 := hR.month
    have h2 : 1 ≤ T.day ∧ T.day ≤ 31 := ⟨hR.day.1, day_le hR⟩
    have h3 := hR.clock
    rw [if_pos ⟨h1, h2⟩, if_pos h3.1, if_pos h3.2.1]
    have hv := (valid_iff T).2 hR
    cases tail with
    | nil =>
      simp only [true_and, hR, if_true]
      rw [if_pos hv]
    | cons x xs => simp
  · have hno : ¬ (tail = [] ∧ RealTime T) := fun h => hR h.2
    rw [if_neg hno]
    by_cases g1 : (1 ≤ T.month ∧ T.month ≤ 12) ∧ 1 ≤ T.day ∧ T.day ≤ 31
    · rw [if_pos g1]
      by_cases g2 : T.hour ≤ 23
      · rw [if_pos g2]
        by_cases g3 : T.minute ≤ 59
        · rw [if_pos g3]
          cases tail with
          | nil =>
            simp only
            rw [if_neg]
            rw [valid_iff]
            exact hR
          | cons x xs => rfl
        · rw [if_neg g3]
      · rw [if_neg g2]
    · rw [if_neg g1]

/-- the time that `MM/DD/YY` stands for -/
def americanTime (m d y : Nat) : Civil := { year := if y ≤ 68 then 2000 + y else 1900 + y, month := m, day := d }

open Classical in
/-- reading `MM/DD/YY` followed by anything -/
theorem strptime_american {m d y : Nat} (hm : m < 100) (hd : d < 100) (hy : y < 100) (tail : List Char) :
    strptime [.month, .lit '/', .day, .lit '/', .year2] (pad2 m ++ ['/'] ++ pad2 d ++ ['/'] ++ pad2 y ++ tail) =
      if tail = [] ∧ RealTime (americanTime m d y) then .ok (americanTime m d y) else .error .valueError := by
  unfold strptime
  simp only [pad2, List.cons_append, List.nil_append]
  rw [match_month (blocked_lit (by decide) _), match_lit, match_day (blocked_lit (by decide) _), match_lit, match_year2]
  simp only [two_val hm, two_val hd, two_val hy, formatMatch]
  by_cases hR : RealTime (americanTime m d y)
  · have h1 : 1 ≤ m ∧ m ≤ 12 := hR.month
    have h2 : 1 ≤ d ∧ d ≤ 31 := ⟨hR.day.1, day_le hR⟩
    rw [if_pos h1, if_pos h2]
    have hv := (valid_iff _).2 hR
    cases tail with
    | nil =>
      simp only [true_and, hR, if_true]
      exact if_pos hv
    | cons x xs => simp
  · have hno : ¬ (tail = [] ∧ RealTime (americanTime m d y)) := fun h => hR h.2
    rw [if_neg hno]
    by_cases g1 : 1 ≤ m ∧ m ≤ 12
    · rw [if_pos g1]
      by_cases g2 : 1 ≤ d ∧ d ≤ 31
      · rw [if_pos g2]
        cases tail with
        | nil =>
          simp only
          refine if_neg ?_
          intro h
          exact hR ((valid_iff _).1 h)
        | cons x xs => rfl
      · rw [if_neg g2]
    · rw [if_neg g1]

/-! ### the strings of a shape -/

theorem fits_two {q : List Shape} {s : List Char} (h : List.Forall₂ Fits (digits 2 ++ q) s) :
    ∃ n r, n < 100 ∧ s = pad2 n ++ r ∧ List.Forall₂ Fits q r := by
  simp only [digits, List.replicate, List.cons_append, List.nil_append, List.forall₂_cons_left_iff, Fits] at h
  obtain ⟨c1, u1, ⟨a, ha, rfl⟩, ⟨c2, u2, ⟨b, hb, rfl⟩, h, rfl⟩, rfl⟩ := h
  refine ⟨10 * a + b, u2, by omega, ?_, h⟩
  have e1 : (10 * a + b) / 10 = a := by omega
  have e2 : dig (10 * a + b) = dig b := by
    unfold dig
    congr 2
    omega
  simp [pad2, e1, e2]

theorem fits_four {q : List Shape} {s : List Char} (h : List.Forall₂ Fits (digits 4 ++ q) s) :
    ∃ n r, n < 10000 ∧ s = pad4 n ++ r ∧ List.Forall₂ Fits q r := by
  simp only [digits, List.replicate, List.cons_append, List.nil_append, List.forall₂_cons_left_iff, Fits] at h
  obtain ⟨c1, u1, ⟨a, ha, rfl⟩, ⟨c2, u2, ⟨b, hb, rfl⟩, ⟨c3, u3, ⟨c, hc, rfl⟩, ⟨c4, u4, ⟨d, hd, rfl⟩, h, rfl⟩, rfl⟩, rfl⟩, rfl⟩ := h
  refine ⟨1000 * a + 100 * b + 10 * c + d, u4, by omega, ?_, h⟩
  have key : ∀ n k, n % 10 = k % 10 → dig n = dig k := by
    intro n k h
    unfold dig
    rw [h]
  simp only [pad4, List.cons_append, List.nil_append]
  rw [key ((1000 * a + 100 * b + 10 * c + d) / 1000) a (by omega), key ((1000 * a + 100 * b + 10 * c + d) / 100) b (by omega),
    key ((1000 * a + 100 * b + 10 * c + d) / 10) c (by omega), key (1000 * a + 100 * b + 10 * c + d) d (by omega)]

theorem fits_lit {c : Char} {q : List Shape} {s : List Char} (h : List.Forall₂ Fits (.lit c :: q) s) :
    ∃ r, s = c :: r ∧ List.Forall₂ Fits q r := by
  cases h with
  | cons h1 h2 =>
    cases h1
    exact ⟨_, rfl, h2⟩

/-- a string of the shape `YYYY-MM-DD?HH:MM` and more -/
theorem fits_stamp {c : Char} {q : List Shape} {s : List Char} (h : List.Forall₂ Fits (shapeDate ++ [.lit c] ++ shapeTime ++ q) s) :
    ∃ T r, TimeBounded T ∧ T.second = 0 ∧ s = writeDate T ++ [c] ++ writeHM T ++ r ∧ List.Forall₂ Fits q r := by
  simp only [shapeDate, shapeTime, List.append_assoc, List.cons_append, List.nil_append] at h
  obtain ⟨y, r1, hy, rfl, hf1⟩ := fits_four h
  obtain ⟨r2, rfl, hf2⟩ := fits_lit hf1
  obtain ⟨m, r3, hm, rfl, hf3⟩ := fits_two hf2
  obtain ⟨r4, rfl, hf4⟩ := fits_lit hf3
  obtain ⟨d, r5, hd, rfl, hf5⟩ := fits_two hf4
  obtain ⟨r6, rfl, hf6⟩ := fits_lit hf5
  obtain ⟨hh, r7, hhh, rfl, hf7⟩ := fits_two hf6
  obtain ⟨r8, rfl, hf8⟩ := fits_lit hf7
  obtain ⟨mi, r9, hmi, rfl, hf9⟩ := fits_two hf8
  exact ⟨⟨y, m, d, hh, mi, 0⟩, r9, ⟨hy, hm, hd, hhh, hmi, by simp⟩, rfl, by simp [writeDate, writeHM], hf9⟩

/-- a string of the shape `YYYY-MM-DD?HH:MM:SS` and more -/
theorem fits_seconds {c : Char} {q : List Shape} {s : List Char}
    (h : List.Forall₂ Fits (shapeDate ++ [.lit c] ++ shapeTime ++ [.lit ':'] ++ digits 2 ++ q) s) :
    ∃ T r, TimeBounded T ∧ s = writeDate T ++ [c] ++ writeHMS T ++ r ∧ List.Forall₂ Fits q r := by
  rw [List.append_assoc, List.append_assoc] at h
  obtain ⟨T, r, hT, -, rfl, hf10⟩ := fits_stamp h
  obtain ⟨r2, rfl, hf11⟩ := fits_lit hf10
  obtain ⟨n, r3, hn, rfl, hf12⟩ := fits_two hf11
  exact ⟨{ T with second := n }, r3, ⟨hT.year, hT.month, hT.day, hT.hour, hT.minute, hn⟩, by simp [writeDate, writeHMS, writeHM], hf12⟩

theorem reMatch_cases {p : List Shape} {s : List Char} (h : reMatch p s = true) :
    ∃ tail, List.Forall₂ Fits (p ++ tail) s := by
  rcases reMatch_iff.1 h with h | ⟨r, rfl, h'⟩
  · exact ⟨[], by simpa using h⟩
  · exact ⟨[.lit '\n'], List.rel_append h' (.cons rfl .nil)⟩

theorem fits_nil {q : List Shape} (h : List.Forall₂ Fits q []) : q = [] := by cases h; rfl

/-! ### which strings are read -/

theorem spaced_of_ok {T t : Civil} {D : Directive} {c : Char} {tail : List Char} (hT : TimeBounded T) (hD : IsSep D c)
    (h : strptime (fmtDate ++ [D] ++ fmtTime ++ [.lit ':', .second]) (writeDate T ++ [c] ++ writeHMS T ++ tail) = .ok t) :
    tail = [] ∧ T = t ∧ RealTime t := by
  classical
  rw [strptime_seconds hT hD] at h
  split at h
  · rename_i hc
    cases h
    exact ⟨hc.1, rfl, hc.2⟩
  · cases h

/-- **C105** (soundness). A string is read only if it writes a real time in one of five formats, and then as this time. -/
theorem C105_sound {s : List Char} {t : Civil} (h : formatTimestampStr s = .ok t) : RealTime t ∧ Writes t s := by
  classical
  unfold formatTimestampStr at h
  split at h
  · -- with an offset: never
    rename_i hm
    obtain ⟨tail, hm⟩ := reMatch_cases hm
    rw [List.append_assoc, List.append_assoc] at hm
    obtain ⟨T, r, hT, rfl, hf13⟩ := fits_seconds hm
    obtain ⟨rfl, -, -⟩ := spaced_of_ok hT (.inr ⟨rfl, rfl⟩) h
    cases hf13
  split at h
  · rename_i hm
    obtain ⟨tail, hm⟩ := reMatch_cases hm
    rw [List.append_assoc] at hm
    obtain ⟨T, r, hT, rfl, hf14⟩ := fits_seconds hm
    obtain ⟨r2, rfl, hf15⟩ := fits_lit hf14
    rw [show writeDate T ++ ['T'] ++ writeHMS T ++ 'Z' :: r2 = writeDate T ++ ['T'] ++ writeHMS T ++ ['Z'] ++ r2 by simp,
      strptime_zulu hT] at h
    split at h
    · rename_i hc
      cases h
      obtain ⟨rfl, hR⟩ := hc
      exact ⟨hR, .zulu, trivial, rfl⟩
    · cases h
  split at h
  · rename_i hm
    obtain ⟨tail, hm⟩ := reMatch_cases hm
    obtain ⟨T, r, hT, rfl, hf16⟩ := fits_seconds hm
    obtain ⟨rfl, rfl, hR⟩ := spaced_of_ok hT (.inl ⟨rfl, rfl⟩) h
    rw [List.append_nil]
    exact ⟨hR, .iso, trivial, rfl⟩
  split at h
  · rename_i hm
    obtain ⟨tail, hm⟩ := reMatch_cases hm
    obtain ⟨T, r, hT, rfl, hf17⟩ := fits_seconds hm
    obtain ⟨rfl, rfl, hR⟩ := spaced_of_ok hT (.inr ⟨rfl, rfl⟩) h
    rw [List.append_nil]
    exact ⟨hR, .spaced, trivial, rfl⟩
  split at h
  · rename_i hm
    obtain ⟨tail, hm⟩ := reMatch_cases hm
    obtain ⟨T, r, hT, hs, rfl, hf18⟩ := fits_stamp hm
    rw [strptime_minutes hT hs] at h
    split at h
    · rename_i hc
      cases h
      obtain ⟨rfl, hR⟩ := hc
      rw [List.append_nil]
      exact ⟨hR, .minutes, hs, rfl⟩
    · cases h
  split at h
  · rename_i hm
    obtain ⟨tail, hm⟩ := reMatch_cases hm
    simp only [List.append_assoc, List.cons_append, List.nil_append] at hm
    obtain ⟨m, r1, hm1, rfl, hf19⟩ := fits_two hm
    obtain ⟨r2, rfl, hf20⟩ := fits_lit hf19
    obtain ⟨d, r3, hd, rfl, hf21⟩ := fits_two hf20
    obtain ⟨r4, rfl, hf22⟩ := fits_lit hf21
    obtain ⟨y, r5, hy, rfl, hf23⟩ := fits_two hf22
    rw [show pad2 m ++ '/' :: (pad2 d ++ '/' :: (pad2 y ++ r5)) = pad2 m ++ ['/'] ++ pad2 d ++ ['/'] ++ pad2 y ++ r5 by simp] at h ⊢
    rw [strptime_american hm1 hd hy] at h
    split at h
    · rename_i hc
      cases h
      obtain ⟨rfl, hR⟩ := hc
      refine ⟨hR, ?_⟩
      have hyy : (americanTime m d y).year = 2000 + y ∧ y ≤ 68 ∨ (americanTime m d y).year = 1900 + y ∧ 68 < y := by
        unfold americanTime
        dsimp only
        split <;> omega
      have e : pad2 (americanTime m d y).year = pad2 y := by
        unfold pad2 dig
        have h1 : (americanTime m d y).year / 10 % 10 = y / 10 % 10 := by omega
        have h2 : (americanTime m d y).year % 10 = y % 10 := by omega
        rw [h1, h2]
      refine ⟨.american, ⟨⟨rfl, rfl, rfl⟩, by omega⟩, ?_⟩
      rw [List.append_nil]
      simp only [written]
      rw [e]
      rfl
    · cases h
  split at h
  · -- `MM/DD/YYYY` read as `%Y%m%d`: never
    rename_i hm
    obtain ⟨tail, hm⟩ := reMatch_cases hm
    simp only [List.append_assoc, List.cons_append, List.nil_append] at hm
    obtain ⟨m, r1, hm1, rfl, hf24⟩ := fits_two hm
    obtain ⟨r2, rfl, hf25⟩ := fits_lit hf24
    exfalso
    have hz : isDig '/' = false := by decide
    unfold strptime at h
    obtain ⟨d, r3, hd, rfl, hf26⟩ := fits_two hf25
    simp [formatMatch, directiveMatch, pad2, hz] at h
  split at h
  · -- `YYYYMMDD` read as `%Y/%m/%d/%H`: never
    rename_i hm
    obtain ⟨tail, hm⟩ := reMatch_cases hm
    rw [List.append_assoc, List.append_assoc] at hm
    obtain ⟨y, r1, hy, rfl, hf27⟩ := fits_four hm
    obtain ⟨m, r2, hm1, rfl, hf28⟩ := fits_two hf27
    exfalso
    have hb := blocked_lit (d := '/') (by decide) [.month, .lit '/', .day, .lit '/', .hour]
    unfold strptime at h
    simp only [pad4, pad2, List.cons_append, List.nil_append] at h
    rw [match_year4, hb] at h
    cases h
  · cases h

/-- **C105** (completeness). A real time written in one of the five formats is read as this time. -/
theorem C105_complete {s : List Char} {t : Civil} (hR : RealTime t) (h : Writes t s) : formatTimestampStr s = .ok t := by
  classical
  have hT := real_bounded hR
  have q1 : ∀ n, (dig n == '-') = false := fun n => dig_ne n (by decide)
  have d2 : isDig '/' = false := by decide
  unfold formatTimestampStr
  obtain ⟨st, hc, rfl⟩ := h
  unfold written
  cases st with
  | zulu =>
    rw [if_neg, if_pos]
    · have := strptime_zulu hT []
      rw [List.append_nil] at this
      rw [this, if_pos ⟨rfl, hR⟩]
    · simp [reMatch, shapeMatch, shapeDate, shapeTime, digits, writeDate, writeHMS, writeHM, pad2, pad4, isDig_dig]
    · simp [reMatch, shapeMatch, shapeDate, shapeTime, digits, writeDate, writeHMS, writeHM, pad2, pad4, isDig_dig]
  | iso =>
    rw [if_neg, if_neg, if_pos]
    · have := strptime_seconds hT (D := .lit 'T') (.inl ⟨rfl, rfl⟩) []
      rw [List.append_nil] at this
      rw [this, if_pos ⟨rfl, hR⟩]
    all_goals simp [reMatch, shapeMatch, shapeDate, shapeTime, digits, writeDate, writeHMS, writeHM, pad2, pad4, isDig_dig]
  | spaced =>
    rw [if_neg, if_neg, if_neg, if_pos]
    · have := strptime_seconds hT (D := .space) (.inr ⟨rfl, rfl⟩) []
      rw [List.append_nil] at this
      rw [this, if_pos ⟨rfl, hR⟩]
    all_goals simp [reMatch, shapeMatch, shapeDate, shapeTime, digits, writeDate, writeHMS, writeHM, pad2, pad4, isDig_dig]
  | minutes =>
    have hs : t.second = 0 := hc
    rw [if_neg, if_neg, if_neg, if_neg, if_pos]
    · have := strptime_minutes hT hs []
      rw [List.append_nil] at this
      rw [this, if_pos ⟨rfl, hR⟩]
    all_goals simp [reMatch, shapeMatch, shapeDate, shapeTime, digits, writeDate, writeHM, pad2, pad4, isDig_dig]
  | american =>
    obtain ⟨hz, hy⟩ := hc
    rw [if_neg, if_neg, if_neg, if_neg, if_neg, if_pos]
    · have e : americanTime t.month t.day (t.year % 100) = t := by
        obtain ⟨y, m, d, h, mi, se⟩ := t
        simp only at hz hy
        obtain ⟨rfl, rfl, rfl⟩ := hz
        unfold americanTime
        simp only [Civil.mk.injEq, and_true]
        split <;> omega
      have e2 : pad2 t.year = pad2 (t.year % 100) := by
        unfold pad2 dig
        have h1 : t.year % 100 / 10 % 10 = t.year / 10 % 10 := by omega
        have h2 : t.year % 100 % 10 = t.year % 10 := by omega
        rw [h1, h2]
      have := strptime_american hT.month hT.day (Nat.mod_lt t.year (show 0 < 100 by omega)) []
      rw [List.append_nil, e, ← e2] at this
      rw [this, if_pos ⟨rfl, hR⟩]
    all_goals simp [reMatch, shapeMatch, shapeDate, shapeTime, digits, pad2, isDig_dig, q1, d2]

/-- **C105** (refusals). Everything else is a ValueError. -/
theorem C105_refused (s : List Char) : (∃ t, formatTimestampStr s = .ok t) ∨ formatTimestampStr s = .error .valueError := by
  have key : ∀ p s, (∃ t, strptime p s = .ok t) ∨ strptime p s = .error .valueError := by
    intro p s
    unfold strptime
    split
    · split
      · exact .inl ⟨_, rfl⟩
      · exact .inr rfl
    · exact .inr rfl
  unfold formatTimestampStr
  repeat' split
  all_goals first | exact key _ _ | exact .inr rfl

theorem writes_length {t : Civil} {s : List Char} (h : Writes t s) :
    s.length = 20 ∨ s.length = 19 ∨ s.length = 16 ∨ s.length = 8 ∧ s[2]? = some '/' := by
  obtain ⟨st, -, rfl⟩ := h
  cases st <;> simp [written, writeDate, writeHMS, writeHM, pad2, pad4]

/-- **C105** (defect). The formats `MM/DD/YYYY`, `YYYYMMDD` and the one with an offset are recognised but never read: the first two are parsed
with the formats of other shapes, the last without its offset. -/
theorem C105_never_read (T : Civil) (n : Nat) :
    formatTimestampStr (pad2 T.month ++ ['/'] ++ pad2 T.day ++ ['/'] ++ pad4 T.year) = .error .valueError ∧
    formatTimestampStr (pad4 T.year ++ pad2 T.month ++ pad2 T.day) = .error .valueError ∧
    formatTimestampStr (writeDate T ++ [' '] ++ writeHMS T ++ [' ', '+'] ++ pad4 n) = .error .valueError := by
  have key : ∀ s : List Char, (∀ t, ¬ Writes t s) → formatTimestampStr s = .error .valueError := by
    intro s hs
    rcases C105_refused s with ⟨t, ht⟩ | h
    · exact absurd (C105_sound ht).2 (hs t)
    · exact h
  refine ⟨key _ ?_, key _ ?_, key _ ?_⟩
  · intro t h
    have := writes_length h
    simp [pad2, pad4] at this
  · intro t h
    have hl := writes_length h
    have hd : dig (T.year / 10) ≠ '/' := by
      have := dig_ne (T.year / 10) (c := '/') (by decide)
      simpa using this
    simp [pad2, pad4, hd] at hl
  · intro t h
    have := writes_length h
    simp [writeDate, writeHMS, writeHM, pad2, pad4] at this

/-! ### columns -/

/-- the format of a style -/
def styleFormat : Style → List Directive
  | .zulu => fmtDate ++ [.lit 'T'] ++ fmtTime ++ [.lit ':', .second, .lit 'Z']
  | .iso => fmtDate ++ [.lit 'T'] ++ fmtTime ++ [.lit ':', .second]
  | .spaced => fmtDate ++ [.space] ++ fmtTime ++ [.lit ':', .second]
  | .minutes => fmtDate ++ [.space] ++ fmtTime
  | .american => [.month, .lit '/', .day, .lit '/', .year2]

theorem american_eq {t : Civil} (h : Style.american.Covers t) :
    americanTime t.month t.day (t.year % 100) = t ∧ pad2 t.year = pad2 (t.year % 100) := by
  obtain ⟨hz, hy⟩ := h
  constructor
  · obtain ⟨y, m, d, h, mi, se⟩ := t
    simp only at hz hy
    obtain ⟨rfl, rfl, rfl⟩ := hz
    unfold americanTime
    simp only [Civil.mk.injEq, and_true]
    split <;> omega
  · unfold pad2 dig
    have h1 : t.year % 100 / 10 % 10 = t.year / 10 % 10 := by omega
    have h2 : t.year % 100 % 10 = t.year % 10 := by omega
    rw [h1, h2]

theorem strptime_written {st : Style} {t : Civil} (hR : RealTime t) (hc : st.Covers t) :
    strptime (styleFormat st) (written st t) = .ok t := by
  classical
  have hT := real_bounded hR
  cases st with
  | zulu => simpa [hR, written, styleFormat] using strptime_zulu hT []
  | iso => simpa [hR, written, styleFormat] using strptime_seconds hT (D := .lit 'T') (.inl ⟨rfl, rfl⟩) []
  | spaced => simpa [hR, written, styleFormat] using strptime_seconds hT (D := .space) (.inr ⟨rfl, rfl⟩) []
  | minutes => simpa [hR, written, styleFormat] using strptime_minutes hT hc []
  | american =>
    have := strptime_american hT.month hT.day (Nat.mod_lt t.year (show 0 < 100 by omega)) []
    obtain ⟨e, e2⟩ := american_eq hc
    rw [List.append_nil, e, ← e2, if_pos ⟨rfl, hR⟩] at this
    exact this

theorem cellParser_written (fromTs : List Char → Except PyErr Int) (st : Style) (t : Civil) :
    cellParser fromTs (written st t) = some fun r => (strptime (styleFormat st) r).map Cell.naive := by
  have q1 : ∀ n, (dig n == '-') = false := fun n => dig_ne n (by decide)
  have d2 : isDig '/' = false := by decide
  unfold cellParser
  cases st <;> simp [styleFormat, written, reMatch, shapeMatch, shapeDate, shapeTime, digits, writeDate, writeHMS, writeHM, pad2, pad4, isDig_dig, d2]

theorem mapM_ok_map {α β γ : Type} {f : β → Except PyErr γ} {g : α → β} {r : α → γ} {l : List α} (h : ∀ a ∈ l, f (g a) = .ok (r a)) :
    (l.map g).mapM f = .ok (l.map r) := by
  induction l with
  | nil => rfl
  | cons a l ih =>
    rw [List.map_cons, List.mapM_cons, h a (by simp), ih (fun b hb => h b (by simp [hb]))]
    rfl

theorem mapM_valueError {β γ : Type} {f : β → Except PyErr γ} {l : List β} (h : ∀ b ∈ l, (∃ c, f b = .ok c) ∨ f b = .error .valueError)
    (hx : ∃ b ∈ l, f b = .error .valueError) : l.mapM f = .error .valueError := by
  induction l with
  | nil => simp at hx
  | cons a l ih =>
    rw [List.mapM_cons]
    rcases h a (by simp) with ⟨c, hc⟩ | hc
    · rw [hc]
      have : ∃ b ∈ l, f b = .error .valueError := by
        obtain ⟨b, hb, hbe⟩ := hx
        rcases List.mem_cons.1 hb with rfl | hb
        · rw [hc] at hbe
          cases hbe
        · exact ⟨b, hb, hbe⟩
      rw [ih (fun b hb => h b (by simp [hb])) this]
      rfl
    · rw [hc]
      rfl

theorem strptime_none {p : List Directive} {s : List Char} (h : formatMatch p {} s = none) : strptime p s = .error .valueError := by
  unfold strptime
  rw [h]

/-- what follows the date, in the four styles that begin with one -/
def afterDate : Style → Civil → List Char
  | .zulu, t => 'T' :: (writeHM t ++ (':' :: (pad2 t.second ++ ['Z'])))
  | .iso, t => 'T' :: (writeHM t ++ (':' :: pad2 t.second))
  | .spaced, t => ' ' :: (writeHM t ++ (':' :: pad2 t.second))
  | .minutes, t => ' ' :: writeHM t
  | .american, _ => []

def afterFormat : Style → List Directive
  | .zulu => .lit 'T' :: (fmtTime ++ [.lit ':', .second, .lit 'Z'])
  | .iso => .lit 'T' :: (fmtTime ++ [.lit ':', .second])
  | .spaced => .space :: (fmtTime ++ [.lit ':', .second])
  | .minutes => .space :: fmtTime
  | .american => []

theorem written_date {st : Style} (h : st ≠ .american) (t : Civil) : written st t = writeDate t ++ afterDate st t := by
  cases st <;> simp [written, afterDate, writeHMS] at h ⊢

theorem format_date {st : Style} (h : st ≠ .american) : styleFormat st = fmtDate ++ afterFormat st := by
  cases st <;> simp [styleFormat, afterFormat] at h ⊢

theorem after_blocked {st : Style} (h : st ≠ .american) : Blocked (afterFormat st) := by
  cases st with
  | zulu => exact blocked_lit (by decide) _
  | iso => exact blocked_lit (by decide) _
  | spaced => exact blocked_space _
  | minutes => exact blocked_space _
  | american => exact absurd rfl h

theorem match_T_space (p : List Directive) (t : Civil) (rest : List Char) : formatMatch (.lit 'T' :: p) t (' ' :: rest) = none := by
  have : (' '.toLower == 'T'.toLower) = false := by decide
  simp [formatMatch, directiveMatch]

theorem match_space_T (p : List Directive) (t : Civil) (rest : List Char) : formatMatch (.space :: p) t ('T' :: rest) = none := by
  have : Char.isWhitespace 'T' = false := by decide
  simp [formatMatch, directiveMatch, this]

theorem match_lit_nil (c : Char) (p : List Directive) (t : Civil) : formatMatch (.lit c :: p) t [] = none := by
  simp [formatMatch, directiveMatch]

/-- the format of one style does not read another style -/
theorem strptime_other {st st' : Style} (hne : st ≠ st') {t : Civil} (hR : RealTime t) :
    strptime (styleFormat st) (written st' t) = .error .valueError := by
  classical
  have hT := real_bounded hR
  have h3 := hR.clock
  by_cases ha : st = .american
  · subst ha
    rw [written_date (Ne.symm hne)]
    refine strptime_none ?_
    simp only [styleFormat, writeDate, pad4, List.cons_append, List.nil_append]
    have hb : Blocked [.lit '/', .day, .lit '/', .year2] := blocked_lit (by decide) _
    rw [match_month hb, hb]
    simp
  by_cases ha' : st' = .american
  · subst ha'
    rw [format_date ha]
    refine strptime_none ?_
    have d2 : isDig '/' = false := by decide
    simp [written, fmtDate, pad2, formatMatch, directiveMatch, d2]
  by_cases hx : st = .iso ∧ st' = .zulu
  · obtain ⟨rfl, rfl⟩ := hx
    have := strptime_seconds hT (D := .lit 'T') (.inl ⟨rfl, rfl⟩) ['Z']
    rw [if_neg (by simp)] at this
    exact this
  by_cases hy : st = .minutes ∧ st' = .spaced
  · obtain ⟨rfl, rfl⟩ := hy
    have := strptime_minutes (T := { t with second := 0 }) ⟨hT.year, hT.month, hT.day, hT.hour, hT.minute, by simp⟩ rfl (':' :: pad2 t.second)
    rw [if_neg (by simp)] at this
    rw [← this]
    simp [styleFormat, written, writeHMS, writeDate, writeHM]
  rw [written_date ha', format_date ha]
  refine strptime_none ?_
  rw [match_date hT (after_blocked ha)]
  split
  swap
  · rfl
  have hn : ∀ rest, writeHM t ++ rest = dig (t.hour / 10) :: (dig t.hour :: ([':'] ++ pad2 t.minute) ++ rest) := by
    intro rest
    simp [writeHM, pad2]
  cases st <;> cases st' <;> simp only [afterFormat, afterDate, match_T_space, match_space_T] <;> simp at hne hx hy ha ha'
  · -- `Z` is missing
    rw [match_lit, match_hm hT (blocked_lit (by decide) _), match_lit]
    simp only [pad2]
    rw [match_second (blocked_lit (by decide) _), match_lit_nil]
    simp
  · -- the seconds are missing
    have e := hn []
    rw [List.append_nil] at e
    rw [e, match_space, ← e, ← List.append_nil (writeHM t), match_hm hT (blocked_lit (by decide) _), match_lit_nil]
    simp

/-- **C105** (columns). A column whose cells are real times written in one style is read cell by cell. -/
theorem C105_column {fromTs : List Char → Except PyErr Int} {st : Style} {ts : List Civil} (hne : ts ≠ []) (hR : ∀ t ∈ ts, RealTime t ∧ st.Covers t) :
    formatTimestamp fromTs (ts.map (written st)) = .ok (ts.map Cell.naive) := by
  obtain _ | ⟨t, ts⟩ := ts
  · exact absurd rfl hne
  · rw [List.map_cons]
    simp only [formatTimestamp]
    rw [cellParser_written]
    have := mapM_ok_map (f := fun r => (strptime (styleFormat st) r).map Cell.naive) (g := written st) (r := Cell.naive) (l := t :: ts)
      (fun a ha => by rw [strptime_written (hR a ha).1 (hR a ha).2]; rfl)
    exact this

/-- **C105** (mixed columns). A column of real times written in more than one style is refused, though each cell alone would be read. -/
theorem C105_mixed {fromTs : List Char → Except PyErr Int} {cells : List (Style × Civil)} (hR : ∀ c ∈ cells, RealTime c.2 ∧ c.1.Covers c.2)
    (hmix : ∃ a ∈ cells, ∃ b ∈ cells, a.1 ≠ b.1) :
    formatTimestamp fromTs (cells.map fun c => written c.1 c.2) = .error .valueError ∧
      ∀ c ∈ cells, formatTimestampStr (written c.1 c.2) = .ok c.2 := by
  refine ⟨?_, fun c hc => C105_complete (hR c hc).1 ⟨c.1, (hR c hc).2, rfl⟩⟩
  obtain _ | ⟨c, cells⟩ := cells
  · obtain ⟨a, ha, -⟩ := hmix
    simp at ha
  rw [List.map_cons]
  simp only [formatTimestamp]
  rw [cellParser_written]
  show List.mapM _ (List.map (fun c => written c.1 c.2) (c :: cells)) = _
  have hother : ∃ b ∈ c :: cells, c.1 ≠ b.1 := by
    obtain ⟨a, ha, b, hb, hab⟩ := hmix
    by_cases h : c.1 = a.1
    · exact ⟨b, hb, by rw [h]; exact hab⟩
    · exact ⟨a, ha, h⟩
  refine mapM_valueError ?_ ?_
  · intro b hb
    obtain ⟨x, hx, rfl⟩ := List.mem_map.1 hb
    by_cases h : c.1 = x.1
    · left
      rw [h, strptime_written (hR x hx).1 (hR x hx).2]
      exact ⟨_, rfl⟩
    · right
      rw [strptime_other h (hR x hx).1]
      rfl
  · obtain ⟨x, hx, h⟩ := hother
    exact ⟨_, List.mem_map_of_mem hx, by rw [strptime_other h (hR x hx).1]; rfl⟩

/-- **C105** (seconds since 1970). A column whose first cell has ten digits is read as seconds since 1970. -/
theorem C105_epoch {fromTs : List Char → Except PyErr Int} {ss : List (List Char)} {s : List Char} (h10 : s.length = 10) (hd : ∀ c ∈ s, c ∈ "0123456789".toList) :
    formatTimestamp fromTs (s :: ss) = (s :: ss).mapM fun r => (fromTs r).map Cell.epoch := by
  have hall : ∀ c ∈ s, isDig c = true ∧ c ≠ '/' := by
    intro c hc
    have hin := hd c hc
    have hlist : ∀ c ∈ "0123456789".toList, isDig c = true ∧ c ≠ '/' := by decide
    exact hlist c hin
  have key : cellParser fromTs s = some fun r => (fromTs r).map Cell.epoch := by
    match s, h10 with
    | [a, b, c, d, e, f, g, h, i, j], _ =>
      simp only [List.mem_cons, List.not_mem_nil, or_false, forall_eq_or_imp, forall_eq] at hall
      unfold cellParser
      simp [reMatch, shapeMatch, shapeDate, shapeTime, digits, hall]
  simp only [formatTimestamp]
  rw [key]

/-- **C105** (round trip). A column of real times from the year 1000 on that is written out is read back as it was. -/
theorem C105_round_trip {fromTs : List Char → Except PyErr Int} {ts : List Civil} (hne : ts ≠ []) (hR : ∀ t ∈ ts, RealTime t ∧ 1000 ≤ t.year) :
    formatTimestamp fromTs (formatTimestampToStr ts) = .ok (ts.map Cell.naive) ∧
      ∀ t ∈ ts, formatTimestampStr (strftimeZ t) = .ok t := by
  have hz : ∀ t, 1000 ≤ t.year → strftimeZ t = written .zulu t := by
    intro t h
    unfold strftimeZ yearDigits
    rw [if_neg (by omega), if_neg (by omega), if_neg (by omega)]
    simp [written, writeDate, writeHMS, writeHM, pad4, pad2, dig]
  refine ⟨?_, fun t ht => ?_⟩
  · have : formatTimestampToStr ts = ts.map (written .zulu) := List.map_congr_left fun t ht => hz t (hR t ht).2
    rw [this]
    exact C105_column hne fun t ht => ⟨(hR t ht).1, trivial⟩
  · rw [hz t (hR t ht).2]
    exact C105_complete (hR t ht).1 ⟨.zulu, trivial, rfl⟩

/-- the hypotheses are met: leap days, the century of two-digit years, seconds, hours and months out of range, mixed columns -/
example : formatTimestampStr "2020-02-29T01:02:03Z".toList = .ok ⟨2020, 2, 29, 1, 2, 3⟩ ∧
    formatTimestampStr "2020-02-29 01:02:03".toList = .ok ⟨2020, 2, 29, 1, 2, 3⟩ ∧
    formatTimestampStr "2020-02-29 01:02".toList = .ok ⟨2020, 2, 29, 1, 2, 0⟩ ∧
    formatTimestampStr "12/31/68".toList = .ok ⟨2068, 12, 31, 0, 0, 0⟩ ∧ formatTimestampStr "12/31/69".toList = .ok ⟨1969, 12, 31, 0, 0, 0⟩ ∧
    formatTimestampStr "2019-02-29T01:02:03Z".toList = .error .valueError ∧
    formatTimestampStr "2020-02-29T24:02:03".toList = .error .valueError ∧
    formatTimestampStr "2020-02-29T01:02:60".toList = .error .valueError ∧
    formatTimestampStr "2020-02-29T01:02:03\n".toList = .error .valueError ∧
    formatTimestampStr "12/31/2020".toList = .error .valueError ∧ formatTimestampStr "20201231".toList = .error .valueError ∧
    formatTimestampStr "2020-02-29 01:02:03 +0000".toList = .error .valueError := by
  decide +kernel

example : RealTime ⟨2020, 2, 29, 1, 2, 3⟩ ∧ written .zulu ⟨2020, 2, 29, 1, 2, 3⟩ = "2020-02-29T01:02:03Z".toList ∧
    Style.american.Covers ⟨2068, 12, 31, 0, 0, 0⟩ ∧ written .american ⟨2068, 12, 31, 0, 0, 0⟩ = "12/31/68".toList := by
  refine ⟨⟨by decide, by decide, by decide, by decide⟩, by decide +kernel, ⟨by decide, by decide⟩, by decide +kernel⟩

example : formatTimestamp (fun _ => .ok 7) ["2020-02-29T01:02:03".toList, "2020-1-2T3:4:5".toList] =
      .ok [.naive ⟨2020, 2, 29, 1, 2, 3⟩, .naive ⟨2020, 1, 2, 3, 4, 5⟩] ∧
    formatTimestamp (fun _ => .ok 7) ["2020-02-29T01:02:03".toList, "2020-02-29 01:02:03".toList] = .error .valueError ∧
    formatTimestamp (fun _ => .ok 7) ["1582934523".toList, "x".toList] = .ok [.epoch 7, .epoch 7] ∧
    formatTimestamp (fun _ => .ok 7) [] = .error .keyError := by
  decide +kernel

end Verif
