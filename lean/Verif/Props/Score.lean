import Verif.Props.Margin
import Verif.Props.Sens

/-!
# Anomaly scores and severities (C33, C68)
-/

namespace Verif

/-- `margins = factors[::-1]`, entry `k` -/
theorem marg_getD {k : Nat} (hk : k ≤ 100) : factors.reverse.getD k 0 = factors.getD (100 - k) 0 := by
  have h := factors_length
  rw [List.getD_eq_getElem?_getD, List.getD_eq_getElem?_getD, List.getElem?_reverse (by omega), h]

theorem factors_strict {j k : Nat} (h : j < k) (hk : k ≤ 100) : factors.getD k 0 < factors.getD j 0 := by
  have hl := factors_length
  rw [List.getD_eq_getElem?_getD, List.getD_eq_getElem?_getD, List.getElem?_eq_getElem (by omega),
    List.getElem?_eq_getElem (by omega)]
  exact List.pairwise_iff_getElem.1 factors_sorted j k (by omega) (by omega) h

theorem bisectLeft_le (l : List ℚ) (x : ℚ) : bisectLeft l x ≤ l.length := by
  unfold bisectLeft
  exact (List.takeWhile_sublist _).length_le

theorem bisectLeft_below {l : List ℚ} {x : ℚ} {k : Nat} (h : k < bisectLeft l x) : l.getD k 0 < x := by
  unfold bisectLeft at h
  have h1 : k < l.length := lt_of_lt_of_le h (List.takeWhile_sublist _).length_le
  have h2 := List.getElem_mem h
  have h3 := List.all_takeWhile (l := l) (p := fun y => decide (y < x))
  rw [List.all_eq_true] at h3
  have h3 := h3 _ h2
  rw [List.getD_eq_getElem?_getD, List.getElem?_eq_getElem h1]
  have e : (l.takeWhile fun y => decide (y < x))[k] = l[k] := (List.takeWhile_prefix _).getElem h
  rw [e] at h3
  simpa using h3

theorem bisectLeft_at {l : List ℚ} {x : ℚ} (h : bisectLeft l x < l.length) : x ≤ l.getD (bisectLeft l x) 0 := by
  unfold bisectLeft at h ⊢
  rw [List.getD_eq_getElem?_getD, List.getElem?_eq_getElem h]
  have hne : ¬ (l[(l.takeWhile fun y => decide (y < x)).length]) < x := by
    induction l with
    | nil => simp at h
    | cons a t ih =>
      by_cases ha : a < x
      · simp only [List.takeWhile_cons, ha, decide_true, if_true, List.length_cons] at h ⊢
        simpa using ih (by simpa using h)
      · simp only [List.takeWhile_cons, ha, decide_false, Bool.false_eq_true, if_false, List.length_nil] at h ⊢
        simpa using ha
  simpa using hne

/-- the interval of the factor table a distance falls into -/
theorem bisect_spec (dist : ℚ) :
    (∀ k, k < bisectLeft factors.reverse dist → factors.getD (100 - k) 0 < dist) ∧
    (∀ k, k ≤ 100 → bisectLeft factors.reverse dist ≤ k → dist ≤ factors.getD (100 - k) 0) ∧
    bisectLeft factors.reverse dist ≤ 101 := by
  have hl := factors_length
  have hle : bisectLeft factors.reverse dist ≤ 101 := by
    have := bisectLeft_le factors.reverse dist
    rwa [List.length_reverse, hl] at this
  refine ⟨?_, ?_, hle⟩
  · intro k hk
    have := bisectLeft_below hk
    rwa [marg_getD (by omega)] at this
  · intro k hk hbk
    have := bisectLeft_at (l := factors.reverse) (x := dist) (by rw [List.length_reverse, hl]; omega)
    rw [marg_getD (by omega)] at this
    exact this.trans (factors_anti (by omega))

/-- where the score lies relative to the table -/
theorem score_bounds (value expected unit : ℚ) :
    let dist := |expected - value| / unit
    let lb := bisectLeft factors.reverse dist
    (lb = 0 → anomalyScore value expected unit = 0) ∧
    (100 ≤ lb → anomalyScore value expected unit = 100) ∧
    (0 < lb → lb < 100 → (lb : ℚ) - 1 < anomalyScore value expected unit ∧ anomalyScore value expected unit ≤ lb ∧
      anomalyScore value expected unit = (lb : ℚ) - 1 +
        (dist - factors.getD (100 - (lb - 1)) 0) / (factors.getD (100 - lb) 0 - factors.getD (100 - (lb - 1)) 0)) := by
  intro dist lb
  obtain ⟨h1, h2, -⟩ := bisect_spec dist
  refine ⟨?_, ?_, ?_⟩
  · intro h
    change bisectLeft factors.reverse (|expected - value| / unit) = 0 at h
    simp [anomalyScore, h]
  · intro h
    change 100 ≤ bisectLeft factors.reverse (|expected - value| / unit) at h
    have h0 : bisectLeft factors.reverse (|expected - value| / unit) ≠ 0 := by omega
    simp [anomalyScore, h, h0]
  · intro h0 h100
    have e : anomalyScore value expected unit = (lb : ℚ) - 1 +
        (dist - factors.getD (100 - (lb - 1)) 0) / (factors.getD (100 - lb) 0 - factors.getD (100 - (lb - 1)) 0) := by
      have hne : lb ≠ 0 := by omega
      have hn : ¬ 100 ≤ lb := by omega
      unfold anomalyScore
      change (if lb = 0 then (0 : ℚ) else if 100 ≤ lb then 100 else _) = _
      rw [if_neg hne, if_neg hn]
      change (lb : ℚ) - 1 + (dist - factors.reverse.getD (lb - 1) 0) /
        (factors.reverse.getD lb 0 - factors.reverse.getD (lb - 1) 0) = _
      rw [marg_getD (by omega), marg_getD (by omega)]
    have ha := h1 (lb - 1) (by change lb - 1 < lb; omega)
    have hb := h2 lb (by omega) le_rfl
    have hpos : 0 < factors.getD (100 - lb) 0 - factors.getD (100 - (lb - 1)) 0 := by
      have := factors_strict (j := 100 - lb) (k := 100 - (lb - 1)) (by omega) (by omega)
      linarith
    have f1 : 0 < (dist - factors.getD (100 - (lb - 1)) 0) /
        (factors.getD (100 - lb) 0 - factors.getD (100 - (lb - 1)) 0) := div_pos (by linarith) hpos
    have f2 : (dist - factors.getD (100 - (lb - 1)) 0) /
        (factors.getD (100 - lb) 0 - factors.getD (100 - (lb - 1)) 0) ≤ 1 := by
      rw [div_le_one hpos]; linarith
    refine ⟨?_, ?_, e⟩ <;> rw [e] <;> linarith

/-- a distance up to entry `s` of the table scores at most `100 - s` -/
theorem score_le {value expected unit : ℚ} {s : Nat} (hs : s ≤ 100)
    (h : |expected - value| / unit ≤ factors.getD s 0) : anomalyScore value expected unit ≤ ((100 - s : Nat) : ℚ) := by
  obtain ⟨h0, h100, hm⟩ := score_bounds value expected unit
  obtain ⟨b1, -, b3⟩ := bisect_spec (|expected - value| / unit)
  set lb := bisectLeft factors.reverse (|expected - value| / unit)
  have hlb : lb ≤ 100 - s := by
    by_contra hc
    have := b1 (100 - s) (by omega)
    rw [show 100 - (100 - s) = s by omega] at this
    linarith
  rcases Nat.eq_zero_or_pos lb with hz | hp
  · rw [h0 hz]; positivity
  · rcases lt_or_ge lb 100 with hlt | hge
    · refine (hm hp hlt).2.1.trans ?_
      exact_mod_cast hlb
    · rw [h100 hge]
      have : s = 0 := by omega
      subst this
      norm_num

/-- a distance above entry `s ≥ 1` of the table scores more than `100 - s` -/
theorem lt_score {value expected unit : ℚ} {s : Nat} (hs : s ≤ 100) (h1 : 1 ≤ s)
    (h : factors.getD s 0 < |expected - value| / unit) : ((100 - s : Nat) : ℚ) < anomalyScore value expected unit := by
  obtain ⟨-, h100, hm⟩ := score_bounds value expected unit
  obtain ⟨-, b2, b3⟩ := bisect_spec (|expected - value| / unit)
  set lb := bisectLeft factors.reverse (|expected - value| / unit)
  have hlb : 100 - s < lb := by
    by_contra hc
    have := b2 (100 - s) (by omega) (by omega)
    rw [show 100 - (100 - s) = s by omega] at this
    linarith
  rcases lt_or_ge lb 100 with hlt | hge
  · refine lt_of_le_of_lt ?_ (hm (by omega) hlt).1
    have : ((100 - s + 1 : Nat) : ℚ) ≤ lb := by exact_mod_cast hlb
    push_cast at this ⊢
    linarith
  · rw [h100 hge]
    have : 100 - s < 100 := by omega
    exact_mod_cast this

/-- **C33** (score range): the score lies in [0, 100], and no score lies strictly between 99 and 100. -/
theorem C33_score_range (value expected unit : ℚ) :
    0 ≤ anomalyScore value expected unit ∧
      (anomalyScore value expected unit ≤ 99 ∨ anomalyScore value expected unit = 100) := by
  obtain ⟨h0, h100, hm⟩ := score_bounds value expected unit
  set lb := bisectLeft factors.reverse (|expected - value| / unit)
  rcases Nat.eq_zero_or_pos lb with hz | hp
  · rw [h0 hz]; norm_num
  · rcases lt_or_ge lb 100 with hlt | hge
    · obtain ⟨a, b, -⟩ := hm hp hlt
      have p1 : (1 : ℚ) ≤ lb := by exact_mod_cast hp
      have p2 : (lb : ℚ) ≤ 99 := by exact_mod_cast Nat.lt_succ_iff.1 hlt
      exact ⟨by linarith, Or.inl (b.trans p2)⟩
    · rw [h100 hge]; norm_num

/-- **C33** (score zero): the score is 0 exactly when the value equals its expectation. -/
theorem C33_score_zero {value expected unit : ℚ} (hu : 0 < unit) :
    anomalyScore value expected unit = 0 ↔ value = expected := by
  constructor
  · intro h
    by_contra hne
    have hpos : 0 < |expected - value| / unit := div_pos (abs_pos.2 (sub_ne_zero.2 (Ne.symm hne))) hu
    have := lt_score (value := value) (expected := expected) (unit := unit) (s := 100) le_rfl (by omega)
      (by rw [factors_last]; exact hpos)
    rw [h] at this
    norm_num at this
  · rintro rfl
    have h1 := score_le (value := value) (expected := value) (unit := unit) (s := 100) le_rfl (by rw [factors_last]; simp)
    have h2 := (C33_score_range value value unit).1
    norm_num at h1
    linarith

/-- **C33** (score monotone): a larger distance, measured in boundary units, never scores lower. -/
theorem C33_score_monotone {value expected unit value' expected' unit' : ℚ}
    (h : |expected - value| / unit ≤ |expected' - value'| / unit') :
    anomalyScore value expected unit ≤ anomalyScore value' expected' unit' := by
  obtain ⟨h0, h100, hm⟩ := score_bounds value expected unit
  obtain ⟨h0', h100', hm'⟩ := score_bounds value' expected' unit'
  obtain ⟨b1, b2, b3⟩ := bisect_spec (|expected - value| / unit)
  obtain ⟨b1', b2', b3'⟩ := bisect_spec (|expected' - value'| / unit')
  set lb := bisectLeft factors.reverse (|expected - value| / unit)
  set lb' := bisectLeft factors.reverse (|expected' - value'| / unit')
  have hle : lb ≤ lb' := by
    by_contra hc
    have u1 := b1 lb' (by omega)
    have u2 := b2' lb' (by omega) le_rfl
    linarith
  have r := C33_score_range value' expected' unit'
  rcases Nat.eq_zero_or_pos lb with hz | hp
  · rw [h0 hz]; exact r.1
  rcases lt_or_ge lb' 100 with hlt | hge
  · obtain ⟨-, c2, c3⟩ := hm hp (by omega)
    obtain ⟨d1, -, d3⟩ := hm' (by omega) hlt
    rcases eq_or_lt_of_le hle with e | hl
    · rw [c3, d3, ← e]
      have hpos : 0 < factors.getD (100 - lb) 0 - factors.getD (100 - (lb - 1)) 0 := by
        have := factors_strict (j := 100 - lb) (k := 100 - (lb - 1)) (by omega) (by omega)
        linarith
      have := div_le_div_of_nonneg_right (sub_le_sub_right h (factors.getD (100 - (lb - 1)) 0)) hpos.le
      linarith
    · have : ((lb + 1 : Nat) : ℚ) ≤ lb' := by exact_mod_cast hl
      push_cast at this
      linarith
  · rw [h100' hge]
    rcases (C33_score_range value expected unit).2 with h | h <;> linarith

/-- **C33** (score scale): entry `s` of the factor table is the distance that scores `100 - s`. -/
theorem C33_score_scale {value expected unit : ℚ} {s : Nat} (hs : s ≤ 100)
    (h : |expected - value| / unit = factors.getD s 0) : anomalyScore value expected unit = ((100 - s : Nat) : ℚ) := by
  refine le_antisymm (score_le hs h.le) ?_
  obtain ⟨-, h100, hm⟩ := score_bounds value expected unit
  obtain ⟨b1, b2, -⟩ := bisect_spec (|expected - value| / unit)
  set lb := bisectLeft factors.reverse (|expected - value| / unit)
  rcases Nat.lt_or_ge s 100 with hlt | hge
  · have hlb : lb = 100 - s := by
      have u1 : lb ≤ 100 - s := by
        by_contra hc
        have := b1 (100 - s) (by omega)
        rw [show 100 - (100 - s) = s by omega, h] at this
        exact lt_irrefl _ this
      have u2 : 100 - s ≤ lb := by
        by_contra hc
        have := b2 (100 - s - 1) (by omega) (by omega)
        rw [h] at this
        have h2 := factors_strict (j := s) (k := 100 - (100 - s - 1)) (by omega) (by omega)
        linarith
      omega
    rcases lt_or_ge lb 100 with hl | hg
    · obtain ⟨-, -, c3⟩ := hm (by omega) hl
      have hpos : factors.getD (100 - lb) 0 - factors.getD (100 - (lb - 1)) 0 ≠ 0 := by
        have := factors_strict (j := 100 - lb) (k := 100 - (lb - 1)) (by omega) (by omega)
        linarith
      rw [c3, h, hlb, show 100 - (100 - s) = s by omega]
      rw [hlb, show 100 - (100 - s) = s by omega] at hpos
      rw [div_self hpos]
      linarith
    · rw [h100 hg]
      have : 100 - s ≤ 100 := by omega
      exact_mod_cast this
  · have : s = 100 := by omega
    subst this
    simpa using (C33_score_range value expected unit).1

/-- a point of a V2 answer that the detector flagged is reported at sensitivity `s` exactly when it is further from
its expectation than the half-width of the band -/
theorem v2_reported {r : Row} {sens : Int} {unit : ℚ} {o : Out} (ha : r.anom = true)
    (h : pointV2 sens r unit = .ok o) :
    o.anom = true ↔ v2Delta unit sens r.value r.expected < |r.expected - r.value| := by
  obtain ⟨um, lm, h1, rfl⟩ := pointV2_eq h
  obtain ⟨-, -, hu, hm, -⟩ := calculateMargin_ok h1
  obtain ⟨rfl, rfl⟩ := hm ha
  have hd := v2Delta_nonneg (sens := sens) (value := r.value) (expected := r.expected) hu
  simp only [ha, Bool.true_and, Bool.or_eq_true, decide_eq_true_eq]
  rw [lt_abs]
  constructor
  · rintro (h | h)
    · left; linarith
    · right; linarith
  · rintro (h | h)
    · left; linarith
    · right; linarith

/-- **C68** (score and sensitivity agree): with V2 boundaries an anomaly flagged by the detector is reported at
sensitivity `s` (1 to 98, or 100) exactly when its score exceeds `100 - s`. -/
theorem C68_reported_iff_score {r : Row} {sens : Int} {unit : ℚ} {o : Out} (ha : r.anom = true)
    (h1 : 1 ≤ sens) (h99 : sens ≠ 99) (h : pointV2 sens r unit = .ok o) :
    o.score = some (anomalyScore r.value r.expected unit) ∧
      (o.anom = true ↔ (100 - sens : ℚ) < anomalyScore r.value r.expected unit) := by
  have hrep := v2_reported ha h
  obtain ⟨um, lm, hm, rfl⟩ := pointV2_eq h
  obtain ⟨-, h100, hu, -, -⟩ := calculateMargin_ok hm
  refine ⟨rfl, hrep.trans ?_⟩
  have hd : v2Delta unit sens r.value r.expected = unit * factors.getD sens.toNat 0 := by
    unfold v2Delta
    rw [if_neg (by tauto)]
  have e : (100 - sens : ℚ) = ((100 - sens.toNat : Nat) : ℚ) := by
    have : (sens : ℚ) = ((sens.toNat : Nat) : ℚ) := by
      have : ((sens.toNat : Nat) : Int) = sens := Int.toNat_of_nonneg (by omega)
      exact_mod_cast this.symm
    rw [this, Nat.cast_sub (by omega)]
    norm_num
  rw [hd, e, mul_comm, ← lt_div_iff₀ hu]
  constructor
  · exact lt_score (by omega) (by omega)
  · intro hs
    by_contra hc
    have := score_le (value := r.value) (expected := r.expected) (unit := unit) (s := sens.toNat) (by omega)
      (not_lt.1 hc)
    linarith

/-- **C68** at sensitivity 0: an anomaly is reported only if its score is 100. The converse fails. -/
theorem C68_sensitivity_zero {r : Row} {unit : ℚ} {o : Out} (ha : r.anom = true) (h : pointV2 0 r unit = .ok o)
    (hr : o.anom = true) : o.score = some 100 := by
  have hrep := (v2_reported ha h).1 hr
  obtain ⟨um, lm, hm, rfl⟩ := pointV2_eq h
  obtain ⟨-, -, hu, -, -⟩ := calculateMargin_ok hm
  have hd : v2Delta unit 0 r.value r.expected = unit * factors.getD 0 0 := by
    unfold v2Delta
    rw [if_neg (by norm_num)]; rfl
  rw [hd, mul_comm, ← lt_div_iff₀ hu] at hrep
  have h2 := lt_score (value := r.value) (expected := r.expected) (unit := unit) (s := 1) (by omega) le_rfl
    (lt_of_le_of_lt (factors_anti (by omega)) hrep)
  have h3 := (C33_score_range r.value r.expected unit).2
  rcases h3 with h3 | h3
  · norm_num at h2; linarith
  · exact congrArg some h3

/-- every severity lies in [0, 1] and is 0 for a point the detector did not flag; in a whole-series answer it is
0 for every point that is not reported -/
theorem C33_severity {rows : List Row} {sens : Int} {model : ModelType} {bv : BoundaryVersion} {outs : List Out}
    (h : getMargins rows sens model bv = .ok outs) :
    ∀ o ∈ outs, 0 ≤ o.severity ∧ o.severity ≤ 1 ∧ (o.anom = false → o.severity = 0) := by
  have v1 : ∀ v e a, 0 ≤ severityV1 v e a ∧ severityV1 v e a ≤ 1 ∧ (a = false → severityV1 v e a = 0) := by
    intro v e a
    unfold severityV1
    cases a
    · simp
    · simp only [Bool.not_true, Bool.false_eq_true, if_false, false_imp_iff, and_true, reduceCtorEq]
      refine ⟨le_min (div_nonneg (abs_nonneg _) ?_) zero_le_one, min_le_right _ _⟩
      split
      · unfold MIN_UNIT; norm_num
      · exact abs_nonneg _
  intro o ho
  unfold getMargins at h
  split at h
  · cases h
    unfold marginsV1 refineMargins at ho
    rw [List.zipWith_eq_zipWith_take_min] at ho
    obtain ⟨i, hi, rfl⟩ := List.mem_iff_getElem.1 ho
    simp only [List.getElem_zipWith]
    unfold refinePoint
    dsimp only
    split <;> exact v1 ..
  · obtain ⟨i, hi, rfl⟩ := List.mem_iff_getElem.1 ho
    have h' := List.forall₂_iff_get.1 (mapM_forall₂ h)
    have hx := h'.2 i (by rw [h'.1]; exact hi) hi
    generalize (rows.zip (rowUnits rows)).get ⟨i, _⟩ = x at hx
    simp only [List.get_eq_getElem] at hx
    generalize outs[i] = o at hx
    obtain ⟨um, lm, -, rfl⟩ := pointV2_eq hx
    have r := C33_score_range x.1.value x.1.expected x.2
    have r100 : anomalyScore x.1.value x.1.expected x.2 ≤ 100 := by rcases r.2 with h | h <;> linarith
    dsimp only
    unfold severityV2
    split
    · simp
    · rename_i hc
      refine ⟨by linarith [r.1], by linarith, ?_⟩
      intro hf
      rw [hf] at hc
      simp at hc

/-! ### concrete cases -/

/-- scores at distances 0, in the table, between entries, and beyond it -/
example : anomalyScore 5 5 1 = 0 ∧ anomalyScore 6 5 1 = 45 ∧ anomalyScore 0 30 2 = 63 ∧
    anomalyScore 500 0 1 = 100 ∧ anomalyScore 1000 0 1 = 100 := by decide +kernel

/-- an anomaly with score 45 is reported at sensitivity 56 and not at 55; with score 100 it need not be
reported at sensitivity 0 -/
example : let r : Row := { value := 6, expected := 5, anom := true, pos := true, neg := false, trend := none, score := none }
    (pointV2 56 r 1).toOption.map (fun o => (o.anom, o.score)) = some (true, some 45) ∧
    (pointV2 55 r 1).toOption.map (fun o => (o.anom, o.score)) = some (false, some 45) ∧
    (pointV2 0 { r with value := 505 } 1).toOption.map (fun o => (o.anom, o.score)) = some (false, some 100) := by
  decide +kernel

end Verif
