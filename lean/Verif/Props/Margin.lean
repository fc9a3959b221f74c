import Verif.Props.Rows
import Verif.Demo

/-!
# Facts about margins

What `get_margins` makes of one row of the detection frame, for both boundary versions.
-/

set_option linter.unusedSimpArgs false

namespace Verif

/-- what the detection frame guarantees about a row when margins are computed -/
structure Row.Ready (r : Row) : Prop where
  flags : r.Flags
  near : r.anom = true → EPS ≤ |r.value - r.expected|

theorem clearNear_ready {r : Row} (h : r.Flags) : (clearNear r).Ready := by
  unfold clearNear
  split
  · exact ⟨⟨rfl, by simp⟩, by simp⟩
  · rename_i hn
    exact ⟨h, fun _ => not_lt.1 hn⟩

theorem clearNear_weak {r : Row} (h : r.Weak) : (clearNear r).Weak := by
  unfold clearNear
  split
  · exact ⟨by simp, by simp⟩
  · exact h

theorem clearNear_dir {r : Row} (h : r.Dir) : (clearNear r).Dir := by
  unfold clearNear
  split
  · exact ⟨by simp, by simp⟩
  · exact h

@[simp] theorem clearNear_value (r : Row) : (clearNear r).value = r.value := by unfold clearNear; split <;> rfl
@[simp] theorem clearNear_expected (r : Row) : (clearNear r).expected = r.expected := by
  unfold clearNear; split <;> rfl
@[simp] theorem clearNear_trend (r : Row) : (clearNear r).trend = r.trend := by unfold clearNear; split <;> rfl
@[simp] theorem clearNear_score (r : Row) : (clearNear r).score = r.score := by unfold clearNear; split <;> rfl

theorem clearNear_anom (r : Row) :
    (clearNear r).anom = true ↔ r.anom = true ∧ EPS ≤ |r.value - r.expected| := by
  unfold clearNear
  split
  · rename_i h
    simp [not_le.2 h]
  · rename_i h
    simp [not_lt.1 h]

theorem eps_pos : (0 : ℚ) < EPS := by norm_num [EPS]

/-- what an output point says about its row -/
structure OutOk (r : Row) (o : Out) : Prop where
  expected : o.expected = r.expected
  flags : o.anom = (o.pos || o.neg)
  excl : ¬ (o.pos = true ∧ o.neg = true)
  upper : 0 ≤ o.upper
  lower : 0 ≤ o.lower
  band : o.anom = false ↔ (r.expected - o.lower ≤ r.value ∧ r.value ≤ r.expected + o.upper)
  implies : o.anom = true → r.anom = true
  posDir : o.pos = true → r.pos = true ∨ r.expected < r.value
  negDir : o.neg = true → r.neg = true ∨ r.value < r.expected

theorem Row.Ready.ne {r : Row} (h : r.Ready) (ha : r.anom = true) : r.value ≠ r.expected := by
  intro e
  have := h.near ha
  rw [e, sub_self, abs_zero] at this
  exact absurd this (not_le.2 eps_pos)

theorem Row.Ready.pos_anom {r : Row} (h : r.Ready) (hp : r.pos = true) : r.anom = true := by
  rw [h.flags.anom, hp]; rfl

theorem Row.Ready.neg_anom {r : Row} (h : r.Ready) (hp : r.neg = true) : r.anom = true := by
  rw [h.flags.anom, hp]; simp

theorem Row.Ready.above {r : Row} (h : r.Ready) (hd : r.Dir) (hp : r.pos = true ∨ r.expected < r.value) :
    r.expected < r.value := by
  rcases hp with hp | hp
  · exact lt_of_le_of_ne (hd.pos hp) (Ne.symm (h.ne (h.pos_anom hp)))
  · exact hp

theorem Row.Ready.below {r : Row} (h : r.Ready) (hd : r.Weak) (hp : r.neg = true ∨ r.value < r.expected) :
    r.value < r.expected := by
  rcases hp with hp | hp
  · exact lt_of_le_of_ne (hd.neg hp) (h.ne (h.neg_anom hp))
  · exact hp

theorem refinePoint_ok {sens : Int} {r : Row} {ub lb : ℚ} (hr : r.Ready) (hu : r.expected ≤ ub)
    (hl : lb ≤ r.expected) : OutOk r (refinePoint sens r ub lb) := by
  have hflags := hr.flags.anom
  have hexcl := hr.flags.excl
  have hpd : r.pos = true → r.pos = true ∨ r.expected < r.value := .inl
  have hnd : r.neg = true → r.neg = true ∨ r.value < r.expected := .inl
  have hne := hr.ne
  unfold refinePoint
  cases ha : r.anom
  · have hp : r.pos = false := by
      by_contra hc
      rw [hr.pos_anom (by simpa using hc)] at ha; cases ha
    have hn : r.neg = false := by
      by_contra hc
      rw [hr.neg_anom (by simpa using hc)] at ha; cases ha
    simp only [ha, Bool.false_and, Bool.not_false, Bool.and_true, decide_eq_true_eq, hp, hn]
    rcases lt_or_ge ub r.value with h1 | h1
    · have h2 : ¬ r.value < lb := by linarith
      split <;>
      · refine ⟨rfl, rfl, by simp, ?_, ?_, ?_, by simp, by simp, by simp⟩
        · simp [h1, h2]; linarith
        · simp [h1, h2]; linarith
        · simp [h1, h2]
          constructor <;> linarith
    · rcases lt_or_ge r.value lb with h2 | h2
      · split <;>
        · refine ⟨rfl, rfl, by simp, ?_, ?_, ?_, by simp, by simp, by simp⟩
          · simp [h2]; linarith
          · simp [h2]; linarith
          · simp [h2]
            constructor <;> linarith
      · split <;>
        · refine ⟨rfl, rfl, by simp, ?_, ?_, ?_, by simp, by simp, by simp⟩
          · simp [not_lt.2 h1, not_lt.2 h2]; linarith
          · simp [not_lt.2 h1, not_lt.2 h2]; linarith
          · simp [not_lt.2 h1, not_lt.2 h2]
            constructor <;> linarith
  · simp only [ha, Bool.true_and, Bool.not_true, Bool.and_false, Bool.false_eq_true, if_false]
    rw [ha] at hflags
    by_cases hin : r.value ≤ ub ∧ lb ≤ r.value
    · have e : (decide (r.value ≤ ub) && decide (lb ≤ r.value)) = true := by simp [hin.1, hin.2]
      simp only [e, if_true, Bool.not_true, Bool.and_false]
      split
      · refine ⟨rfl, hflags, hexcl, le_refl _, le_refl _, ?_, fun _ => ha, hpd, hnd⟩
        simp only [Bool.true_eq_false, sub_zero, add_zero, false_iff, not_and, not_le]
        intro h
        exact lt_of_le_of_ne h (Ne.symm (hne ha))
      · refine ⟨rfl, rfl, by simp, ?_, ?_, ?_, by simp, by simp, by simp⟩
        · simp only; linarith
        · simp only; linarith
        · simp only [true_iff]
          constructor <;> linarith [hin.1, hin.2]
    · have e : (decide (r.value ≤ ub) && decide (lb ≤ r.value)) = false := by
        by_contra hc
        simp at hc
        exact hin hc
      have hband : ¬ (r.expected - (r.expected - lb) ≤ r.value ∧ r.value ≤ r.expected + (ub - r.expected)) := by
        intro h
        exact hin ⟨by linarith [h.2], by linarith [h.1]⟩
      simp only [e, Bool.false_eq_true, if_false, Bool.not_false, Bool.and_true]
      split
      · exact ⟨rfl, hflags, hexcl, by simp only; linarith, by simp only; linarith,
          by simpa using hband, fun _ => ha, hpd, hnd⟩
      · exact ⟨rfl, hflags, hexcl, by simp only; linarith, by simp only; linarith,
          by simpa using hband, fun _ => ha, hpd, hnd⟩

theorem npClip_eq_min {x lo hi : ℚ} (h : lo ≤ x) : npClip x lo hi = min x hi := by
  unfold npClip
  rw [max_eq_left h]

/-! ### version 1 -/

theorem length_refineMargins {sens : Int} {rows : List Row} {ms : List ℚ} (h : ms.length = rows.length) :
    (refineMargins sens rows ms).length = rows.length := by
  simp [refineMargins, h]

/-- the bounds that `refine_margins` works with at a point -/
theorem getElem_refineMargins {sens : Int} {rows : List Row} {ms : List ℚ} (h : ms.length = rows.length) {i : Nat}
    (hi : i < rows.length) :
    (refineMargins sens rows ms)[i]'(by rw [length_refineMargins h]; exact hi) =
      refinePoint sens rows[i]
        (min (rows[i].expected + ms[i]) (max (npMax (rows.map (·.value))) (npMax (rows.map (·.expected)))))
        (min (max (rows[i].expected - ms[i]) (min (npMin (rows.map (·.value))) (npMin (rows.map (·.expected)))))
          (npMax (List.zipWith (· - ·) (rows.map (·.expected)) ms))) := by
  have hm : rows[i].expected + ms[i] ∈ List.zipWith (· + ·) (rows.map (·.expected)) ms := by
    rw [List.mem_iff_getElem]
    exact ⟨i, by simp [h, hi], by simp⟩
  rw [← npClip_eq_min (npMin_le hm)]
  simp [refineMargins, npClip]

theorem refineMargins_ok {sens : Int} {rows : List Row} {ms : List ℚ} (h : ms.length = rows.length)
    (hm : ∀ m ∈ ms, 0 ≤ m) (hr : ∀ r ∈ rows, r.Ready) : List.Forall₂ OutOk rows (refineMargins sens rows ms) := by
  rw [List.forall₂_iff_get]
  refine ⟨(length_refineMargins h).symm, ?_⟩
  intro i hi hi'
  simp only [List.get_eq_getElem]
  rw [getElem_refineMargins h hi]
  have h1 : 0 ≤ ms[i] := hm _ (List.getElem_mem _)
  have hmem : rows[i].expected ∈ rows.map (·.expected) := List.mem_map.2 ⟨_, List.getElem_mem hi, rfl⟩
  refine refinePoint_ok (hr _ (List.getElem_mem _)) ?_ ?_
  · exact le_min (by linarith) (le_trans (le_npMax hmem) (le_max_right _ _))
  · exact le_trans (min_le_left _ _) (max_le (by linarith) (le_trans (min_le_right _ _) (npMin_le hmem)))

theorem length_srMargins (sens : Int) (rows : List Row) : (srMargins sens rows).length = rows.length := by
  simp [srMargins]

theorem length_adMargins (sens : Int) (rows : List Row) : (adMargins sens rows).length = rows.length := by
  simp [adMargins]

/-- the V1 margins before refinement -/
def v1Margins (sens : Int) (rows : List Row) (model : ModelType) : List ℚ :=
  if model = .SpectralResidual then srMargins sens rows else adMargins sens rows

theorem length_v1Margins (sens : Int) (rows : List Row) (model : ModelType) :
    (v1Margins sens rows model).length = rows.length := by
  unfold v1Margins
  split
  · exact length_srMargins ..
  · exact length_adMargins ..

theorem srMargins_getElem (rows : List Row) (i : Nat) (hi : i < rows.length) :
    ∃ base : ℚ, 0 ≤ base ∧ ∀ s : Int, (srMargins s rows)[i]'(by rw [length_srMargins]; exact hi) =
      if rows[i].score.getD 0 ≤ EPS then base
      else |rows[i].value - rows[i].expected| / rows[i].score.getD 0 * (1 - (s : ℚ) / 100) := by
  refine ⟨if 0 < ((rows.filter fun r => decide (r.score.getD 0 ≤ EPS)).map (·.value)).length then
    (npMax ((rows.filter fun r => decide (r.score.getD 0 ≤ EPS)).map (·.value)) -
      npMin ((rows.filter fun r => decide (r.score.getD 0 ≤ EPS)).map (·.value))) * (1 / 100) else 0, ?_, ?_⟩
  · split
    · rename_i h
      have hne : ((rows.filter fun r => decide (r.score.getD 0 ≤ EPS)).map (·.value)) ≠ [] := by
        intro e; rw [e] at h; simp at h
      have := npMin_le (npMax_mem hne)
      linarith
    · exact le_rfl
  · intro s
    simp [srMargins]

/-- margins shrink as the sensitivity grows, and are never negative -/
theorem v1Margins_mono {rows : List Row} {model : ModelType} {s t : Int} (hst : s ≤ t) (ht : t ≤ 100) {i : Nat}
    (hi : i < rows.length) :
    0 ≤ (v1Margins t rows model)[i]'(by rw [length_v1Margins]; exact hi) ∧
      (v1Margins t rows model)[i]'(by rw [length_v1Margins]; exact hi) ≤
        (v1Margins s rows model)[i]'(by rw [length_v1Margins]; exact hi) := by
  have hs' : (s : ℚ) ≤ t := by exact_mod_cast hst
  have ht' : (t : ℚ) ≤ 100 := by exact_mod_cast ht
  by_cases hm : model = .SpectralResidual
  · simp only [v1Margins, if_pos hm]
    obtain ⟨base, hb, hf⟩ := srMargins_getElem rows i hi
    rw [hf t, hf s]
    split
    · exact ⟨hb, le_rfl⟩
    · rename_i hsc
      have hpos : (0 : ℚ) ≤ |rows[i].value - rows[i].expected| / rows[i].score.getD 0 :=
        div_nonneg (abs_nonneg _) (le_trans eps_pos.le (not_le.1 hsc).le)
      exact ⟨mul_nonneg hpos (by linarith), mul_le_mul_of_nonneg_left (by linarith) hpos⟩
  · simp only [v1Margins, if_neg hm, adMargins, List.getElem_map]
    have hpos : (0 : ℚ) ≤ |rows[i].expected| := abs_nonneg _
    constructor
    · exact div_nonneg (mul_nonneg hpos (by linarith)) (by norm_num)
    · have := mul_le_mul_of_nonneg_left (by linarith : (100 - t : ℚ) ≤ 100 - s) hpos
      linarith

theorem marginsV1_eq (rows : List Row) (sens : Int) (model : ModelType) :
    marginsV1 rows sens model = refineMargins sens rows (v1Margins sens rows model) := rfl

theorem marginsV1_ok {rows : List Row} {sens : Int} {model : ModelType} (hs : sens ≤ 100)
    (hr : ∀ r ∈ rows, r.Ready) : List.Forall₂ OutOk rows (marginsV1 rows sens model) := by
  rw [marginsV1_eq]
  refine refineMargins_ok (length_v1Margins ..) ?_ hr
  intro m hm
  obtain ⟨i, hi, rfl⟩ := List.mem_iff_getElem.1 hm
  exact (v1Margins_mono (s := sens) le_rfl hs (by rw [length_v1Margins] at hi; exact hi)).1

/-! ### version 2 -/

theorem factors_nonneg (k : Nat) : 0 ≤ factors.getD k 0 := by
  rw [List.getD_eq_getElem?_getD]
  cases h : factors[k]? with
  | none => simp
  | some x =>
    have : ∀ y ∈ factors, 0 ≤ y := by decide +kernel
    exact this x (List.mem_of_getElem? h)

theorem factors_sorted : factors.Pairwise (· > ·) := by decide +kernel

theorem factors_length : factors.length = 101 := by decide +kernel

theorem factors_last : factors.getD 100 0 = 0 := by decide +kernel

theorem factors_anti {j k : Nat} (h : j ≤ k) : factors.getD k 0 ≤ factors.getD j 0 := by
  rcases lt_or_ge k factors.length with hk | hk
  · rcases eq_or_lt_of_le h with rfl | hlt
    · exact le_rfl
    · rw [List.getD_eq_getElem?_getD, List.getD_eq_getElem?_getD, List.getElem?_eq_getElem hk,
        List.getElem?_eq_getElem (by omega)]
      exact (List.pairwise_iff_getElem.1 factors_sorted j k (by omega) hk hlt).le
  · rw [List.getD_eq_getElem?_getD, List.getElem?_eq_none hk]
    exact factors_nonneg j

/-- the half-width of the band at a flagged point -/
def v2Delta (unit : ℚ) (sens : Int) (value expected : ℚ) : ℚ :=
  if unit * factors.getD sens.toNat 0 * ANOMALY_IGNORE_RATIO < |value - expected| ∧
      |value - expected| < unit * factors.getD sens.toNat 0 ∧ sens = 99
  then |expected - value| * (1 / 2) else unit * factors.getD sens.toNat 0

theorem calculateMargin_ok {unit : ℚ} {sens : Int} {value expected : ℚ} {anom : Bool} {um lm : ℚ}
    (h : calculateMargin unit sens value expected anom = .ok (um, lm)) :
    0 ≤ sens ∧ sens ≤ 100 ∧ 0 < unit ∧
      (anom = true → um = v2Delta unit sens value expected ∧ lm = v2Delta unit sens value expected) ∧
      (anom = false → 0 ≤ um ∧ 0 ≤ lm ∧ expected - lm ≤ value ∧ value ≤ expected + um) := by
  unfold calculateMargin at h
  split at h
  · cases h
  rename_i h1
  split at h
  · cases h
  rename_i h2
  push Not at h1 h2
  refine ⟨h1.1, h1.2, h2, ?_, ?_⟩
  · rintro rfl
    simp only [Bool.not_true, Bool.false_eq_true, if_false, Except.ok.injEq, Prod.mk.injEq] at h
    exact ⟨h.1.symm, h.2.symm⟩
  · rintro rfl
    have hd : 0 ≤ unit * factors.getD sens.toNat 0 * (1 / 2) :=
      mul_nonneg (mul_nonneg h2.le (factors_nonneg _)) (by norm_num)
    have ha := abs_nonneg (expected - value)
    have h3 := le_abs_self (expected - value)
    have h4 := neg_abs_le (expected - value)
    simp only [Bool.not_false, if_true] at h
    split at h <;>
    · simp only [Except.ok.injEq, Prod.mk.injEq] at h
      rename_i hlt
      refine ⟨by linarith, by linarith, by linarith, by linarith⟩

theorem v2Delta_nonneg {unit : ℚ} {sens : Int} {value expected : ℚ} (hu : 0 < unit) :
    0 ≤ v2Delta unit sens value expected := by
  unfold v2Delta
  split
  · positivity
  · exact mul_nonneg hu.le (factors_nonneg _)

/-- the fields both V2 variants share -/
theorem v2_ok {r : Row} {unit um lm : ℚ} {sens : Int} {severity score : ℚ}
    (h : calculateMargin unit sens r.value r.expected r.anom = .ok (um, lm)) :
    OutOk r { expected := r.expected, upper := um, lower := lm
              neg := r.anom && decide (r.value < r.expected - lm)
              pos := r.anom && decide (r.expected + um < r.value)
              anom := (r.anom && decide (r.value < r.expected - lm)) ||
                (r.anom && decide (r.expected + um < r.value))
              severity := severity, unit := some unit, score := some score } := by
  obtain ⟨h0, h1, hu, ha, hn⟩ := calculateMargin_ok h
  have hum : 0 ≤ um ∧ 0 ≤ lm := by
    cases hr : r.anom
    · exact ⟨(hn hr).1, (hn hr).2.1⟩
    · rw [(ha hr).1, (ha hr).2]
      exact ⟨v2Delta_nonneg hu, v2Delta_nonneg hu⟩
  refine ⟨rfl, Bool.or_comm _ _, ?_, hum.1, hum.2, ?_, ?_, ?_, ?_⟩
  · simp only [Bool.and_eq_true, decide_eq_true_eq, not_and, not_lt, and_imp]
    intro _ h2 _
    linarith [hum.1, hum.2]
  · cases hr : r.anom
    · simp only [Bool.false_and, Bool.or_self, true_iff]
      exact (hn hr).2.2
    · simp only [Bool.true_and, Bool.or_eq_false_iff, decide_eq_false_iff_not, not_lt]
  · simp only [Bool.or_eq_true, Bool.and_eq_true]
    rintro (h | h) <;> exact h.1
  · simp only [Bool.and_eq_true, decide_eq_true_eq, and_imp]
    intro _ h2
    exact .inr (by linarith [hum.1])
  · simp only [Bool.and_eq_true, decide_eq_true_eq, and_imp]
    intro _ h2
    exact .inr (by linarith [hum.2])

theorem pointV2_eq {sens : Int} {r : Row} {unit : ℚ} {o : Out} (h : pointV2 sens r unit = .ok o) :
    ∃ um lm, calculateMargin unit sens r.value r.expected r.anom = .ok (um, lm) ∧
      o = { expected := r.expected, upper := um, lower := lm
            neg := r.anom && decide (r.value < r.expected - lm)
            pos := r.anom && decide (r.expected + um < r.value)
            anom := (r.anom && decide (r.value < r.expected - lm)) ||
              (r.anom && decide (r.expected + um < r.value))
            severity := severityV2 (anomalyScore r.value r.expected unit)
              ((r.anom && decide (r.value < r.expected - lm)) || (r.anom && decide (r.expected + um < r.value)))
            unit := some unit, score := some (anomalyScore r.value r.expected unit) } := by
  unfold pointV2 at h
  obtain ⟨⟨um, lm⟩, h1, h⟩ := ebind_ok.1 h
  exact ⟨um, lm, h1, (epure_ok.1 h).symm⟩

theorem pointV2Last_eq {sens : Int} {r : Row} {unit : ℚ} {o : Out} (h : pointV2Last sens r unit = .ok o) :
    ∃ um lm, calculateMargin unit sens r.value r.expected r.anom = .ok (um, lm) ∧
      o = { expected := r.expected, upper := um, lower := lm
            neg := r.anom && decide (r.value < r.expected - lm)
            pos := r.anom && decide (r.expected + um < r.value)
            anom := (r.anom && decide (r.value < r.expected - lm)) ||
              (r.anom && decide (r.expected + um < r.value))
            severity := severityV2 (anomalyScore r.value r.expected unit) r.anom
            unit := some unit, score := some (anomalyScore r.value r.expected unit) } := by
  unfold pointV2Last at h
  obtain ⟨⟨um, lm⟩, h1, h⟩ := ebind_ok.1 h
  refine ⟨um, lm, h1, ?_⟩
  rw [← epure_ok.1 h]
  simp only [Bool.and_comm, Bool.or_comm]

theorem length_boundaryUnits (t : List ℚ) (a : List Bool) : (boundaryUnits t a).length = t.length := by
  unfold boundaryUnits
  dsimp only
  split <;> simp

theorem length_rowUnits (rows : List Row) : (rowUnits rows).length = rows.length := by
  rw [rowUnits, length_boundaryUnits, List.length_map]

theorem mapM_forall₂ {ε α β} {f : α → Except ε β} {l : List α} {r : List β} (h : l.mapM f = .ok r) :
    List.Forall₂ (fun a b => f a = .ok b) l r := mapM_except_ok h

theorem forall₂_zip_left {α β γ} {R : α × β → γ → Prop} {l : List α} {m : List β} {r : List γ}
    (h : List.Forall₂ R (l.zip m) r) (hl : m.length = l.length) :
    List.Forall₂ (fun a c => ∃ b, R (a, b) c) l r := by
  rw [List.forall₂_iff_get] at h ⊢
  obtain ⟨h1, h2⟩ := h
  rw [List.length_zip, hl, min_self] at h1
  refine ⟨h1, ?_⟩
  intro i hi hi'
  refine ⟨m[i], ?_⟩
  have := h2 i (by simp [hl, hi]) hi'
  simpa using this

/-- every output point is consistent with its row -/
theorem getMargins_ok {rows : List Row} {sens : Int} {model : ModelType} {bv : BoundaryVersion} {outs : List Out}
    (hs : sens ≤ 100) (hr : ∀ r ∈ rows, r.Ready) (h : getMargins rows sens model bv = .ok outs) :
    List.Forall₂ OutOk rows outs := by
  unfold getMargins at h
  split at h
  · cases h
    exact marginsV1_ok hs hr
  · refine (forall₂_zip_left (mapM_forall₂ h) (length_rowUnits rows)).imp ?_
    rintro r o ⟨u, hu⟩
    obtain ⟨um, lm, h1, rfl⟩ := pointV2_eq hu
    exact v2_ok h1

theorem forall₂_getLast {α β} {R : α → β → Prop} {l : List α} {m : List β} (h : List.Forall₂ R l m) {b : β}
    (hb : m.getLast? = some b) : ∃ a, l.getLast? = some a ∧ R a b := by
  have hr : List.Forall₂ R l.reverse m.reverse := List.rel_reverse h
  rw [List.getLast?_eq_head?_reverse] at hb ⊢
  revert hr hb
  generalize l.reverse = l'
  generalize m.reverse = m'
  intro hb hr
  cases hr with
  | nil => simp at hb
  | cons h1 h2 =>
    simp only [List.head?_cons, Option.some.injEq] at hb ⊢
    subst hb
    exact ⟨_, rfl, h1⟩

theorem getLast?_zip {α β} {l : List α} {m : List β} (h : m.length = l.length) {x : α × β}
    (hx : (l.zip m).getLast? = some x) : l.getLast? = some x.1 ∧ m.getLast? = some x.2 := by
  rw [List.getLast?_eq_getElem?] at hx ⊢
  rw [List.getLast?_eq_getElem?]
  rw [List.length_zip, h, min_self] at hx
  rw [h]
  obtain ⟨a, b⟩ := x
  rw [List.getElem?_zip_eq_some] at hx
  exact hx

theorem getMarginsLast_ok {rows : List Row} {sens : Int} {model : ModelType} {bv : BoundaryVersion} {o : Out}
    (hs : sens ≤ 100) (hr : ∀ r ∈ rows, r.Ready) (h : getMarginsLast rows sens model bv = .ok o) :
    ∃ r, rows.getLast? = some r ∧ OutOk r o := by
  unfold getMarginsLast at h
  split at h
  · split at h
    · rename_i o' ho
      cases h
      exact forall₂_getLast (marginsV1_ok hs hr) ho
    · cases h
  · split at h
    · rename_i x hx
      obtain ⟨um, lm, h1, rfl⟩ := pointV2Last_eq h
      exact ⟨x.1, (getLast?_zip (length_rowUnits rows) hx).1, v2_ok h1⟩
    · cases h

end Verif
