import Verif.Props.Periods
import Verif.Uni.Blind

/-!
# Sensitivity, boundary units and the suggested window (C18, C19, C23, C32)
-/

namespace Verif

open Spec

/-! ## Boundary units -/

/-- **C32** (boundary units are bounded below): every unit is at least 0.3. -/
theorem C32_units_bounded (trend : List ℚ) (anom : List Bool) : ∀ u ∈ boundaryUnits trend anom, 3 / 10 ≤ u := by
  intro u hu
  unfold boundaryUnits at hu
  dsimp only at hu
  split at hu
  · obtain ⟨_, -, rfl⟩ := List.mem_map.1 hu
    exact le_refl _
  · obtain ⟨x, -, rfl⟩ := List.mem_map.1 hu
    unfold npClip MIN_UNIT
    exact le_min (le_max_right _ _) (le_max_left _ _)

/-- **C32**, second half: with such a unit and a sensitivity in range the margin is computed. -/
theorem C32_margin_computed {unit : ℚ} (hu : 3 / 10 ≤ unit) {sens : Int} (h0 : 0 ≤ sens) (h1 : sens ≤ 100)
    (value expected : ℚ) (anom : Bool) : ∃ m, calculateMargin unit sens value expected anom = .ok m := by
  unfold calculateMargin
  rw [if_neg (by omega), if_neg (by linarith)]
  dsimp only
  split
  · split <;> exact ⟨_, rfl⟩
  · exact ⟨_, rfl⟩

/-- **C32** for the whole answer: the V2 margins of any frame are computed. -/
theorem C32_margins_computed (rows : List Row) {sens : Int} (h0 : 0 ≤ sens) (h1 : sens ≤ 100) (model : ModelType)
    (bv : BoundaryVersion) : ∃ outs, getMargins rows sens model bv = .ok outs := by
  unfold getMargins
  split
  · exact ⟨_, rfl⟩
  · have key : ∀ l : List (Row × ℚ), (∀ x ∈ l, 3 / 10 ≤ x.2) →
        ∃ outs, l.mapM (fun x => pointV2 sens x.1 x.2) = .ok outs := by
      intro l
      induction l with
      | nil => intro _; exact ⟨[], rfl⟩
      | cons x t ih =>
        intro hl
        obtain ⟨m, hm⟩ := C32_margin_computed (hl x (by simp)) h0 h1 x.1.value x.1.expected x.1.anom
        obtain ⟨outs, ho⟩ := ih fun y hy => hl y (by simp [hy])
        obtain ⟨o, hp⟩ : ∃ o, pointV2 sens x.1 x.2 = .ok o := by
          simp [pointV2, hm, bind, Except.bind, pure, Except.pure]
        refine ⟨o :: outs, ?_⟩
        rw [List.mapM_cons, hp, ho]
        rfl
    refine key _ ?_
    intro x hx
    exact C32_units_bounded _ _ x.2 (List.of_mem_zip (b := x.2) (a := x.1) hx).2

/-! ## Monotone margins -/

/-- what is reported at `o` is also reported at `o'` -/
structure Kept (o o' : Out) : Prop where
  expected : o'.expected = o.expected
  anom : o.anom = true → o'.anom = true
  pos : o.pos = true → o'.pos = true
  neg : o.neg = true → o'.neg = true

theorem refinePoint_mono {s t : Int} (hst : s ≤ t) (ht : t ≤ 100) {r : Row} {ub lb ub' lb' : ℚ} (hu : ub' ≤ ub)
    (hl : lb ≤ lb') : Kept (refinePoint s r ub lb) (refinePoint t r ub' lb') := by
  unfold refinePoint
  dsimp only
  have key : ∀ b : Bool, (b && !(r.anom && (decide (r.value ≤ ub) && decide (lb ≤ r.value)))) = true →
      (b && !(r.anom && (decide (r.value ≤ ub') && decide (lb' ≤ r.value)))) = true := by
    intro b
    simp only [Bool.and_eq_true, Bool.not_eq_true', Bool.and_eq_false_iff, decide_eq_false_iff_not, not_le]
    rintro ⟨h1, h2⟩
    refine ⟨h1, ?_⟩
    rcases h2 with h2 | h2 | h2
    · exact .inl h2
    · exact .inr (.inl (lt_of_le_of_lt hu h2))
    · exact .inr (.inr (lt_of_lt_of_le h2 hl))
  by_cases h100 : t = 100
  · rw [if_pos h100]
    split
    · exact ⟨rfl, id, id, id⟩
    · refine ⟨rfl, ?_, ?_, ?_⟩ <;> simp only [Bool.and_eq_true] <;> exact fun h => h.1
  · rw [if_neg h100, if_neg (by omega)]
    exact ⟨rfl, key _, key _, key _⟩

theorem npMax_zipWith_mono {es ms ms' : List ℚ} (h : ms.length = es.length) (h' : ms'.length = es.length)
    (hm : ∀ i (hi : i < es.length), ms'[i] ≤ ms[i]) :
    npMax (List.zipWith (· - ·) es ms) ≤ npMax (List.zipWith (· - ·) es ms') := by
  by_cases hne : es = []
  · subst hne; simp
  · refine npMax_le ?_ ?_
    · intro hc
      have := congrArg List.length hc
      simp [h] at this
      exact hne this
    · intro x hx
      obtain ⟨i, hi, rfl⟩ := List.mem_iff_getElem.1 hx
      have hi' : i < es.length := by simp at hi; omega
      have hmem : es[i] - ms'[i] ∈ List.zipWith (· - ·) es ms' :=
        List.mem_iff_getElem.2 ⟨i, by simp [h', hi'], by simp⟩
      refine le_trans ?_ (le_npMax hmem)
      simp only [List.getElem_zipWith]
      have := hm i hi'
      linarith

theorem marginsV1_mono {rows : List Row} {model : ModelType} {s t : Int} (hst : s ≤ t) (ht : t ≤ 100) :
    List.Forall₂ Kept (marginsV1 rows s model) (marginsV1 rows t model) := by
  rw [marginsV1_eq, marginsV1_eq, List.forall₂_iff_get]
  have l1 := length_v1Margins s rows model
  have l2 := length_v1Margins t rows model
  refine ⟨by rw [length_refineMargins l1, length_refineMargins l2], ?_⟩
  intro i hi hi'
  rw [length_refineMargins l1] at hi
  simp only [List.get_eq_getElem]
  rw [getElem_refineMargins l1 hi, getElem_refineMargins l2 hi]
  have hmono := fun j hj => (v1Margins_mono (rows := rows) (model := model) hst ht (i := j) hj).2
  refine refinePoint_mono hst ht ?_ ?_
  · exact min_le_min_right _ (by linarith [hmono i hi])
  · refine min_le_min (max_le_max_right _ (by linarith [hmono i hi])) ?_
    refine npMax_zipWith_mono (by simp [l1]) (by simp [l2]) ?_
    intro j hj
    exact hmono j (by simpa using hj)

theorem v2Delta_mono {unit value expected : ℚ} (hu : 0 < unit) {s t : Int} (h0 : 0 ≤ s) (hst : s ≤ t) (ht : t ≤ 100)
    (h : v2Delta unit s value expected < |value - expected|) :
    v2Delta unit t value expected < |value - expected| := by
  have hpos : 0 < |value - expected| := lt_of_le_of_lt (v2Delta_nonneg hu) h
  have hanti : unit * factors.getD t.toNat 0 ≤ unit * factors.getD s.toNat 0 :=
    mul_le_mul_of_nonneg_left (factors_anti (by omega)) hu.le
  have hcomm : |expected - value| = |value - expected| := abs_sub_comm _ _
  unfold v2Delta at h ⊢
  split
  · rw [hcomm]; linarith
  · rename_i hc
    split at h
    · rename_i hs
      -- s = 99, so t is 99 or 100
      obtain ⟨h1, h2, rfl⟩ := hs
      rcases (show t = 99 ∨ t = 100 by omega) with rfl | rfl
      · exact absurd ⟨h1, h2, rfl⟩ hc
      · have : factors.getD (100 : Int).toNat 0 = 0 := factors_last
        rw [this, mul_zero]
        exact hpos
    · exact lt_of_le_of_lt hanti h

theorem v2_kept {r : Row} {unit : ℚ} {s t : Int} (h0 : 0 ≤ s) (hst : s ≤ t) (ht : t ≤ 100) {um lm um' lm' : ℚ}
    (h : calculateMargin unit s r.value r.expected r.anom = .ok (um, lm))
    (h' : calculateMargin unit t r.value r.expected r.anom = .ok (um', lm')) :
    (r.anom = true ∧ r.expected + um < r.value → r.expected + um' < r.value) ∧
      (r.anom = true ∧ r.value < r.expected - lm → r.value < r.expected - lm') := by
  obtain ⟨-, -, hu, ha, -⟩ := calculateMargin_ok h
  obtain ⟨-, -, -, ha', -⟩ := calculateMargin_ok h'
  have hd := v2Delta_nonneg (unit := unit) (sens := s) (value := r.value) (expected := r.expected) hu
  have hd' := v2Delta_nonneg (unit := unit) (sens := t) (value := r.value) (expected := r.expected) hu
  constructor
  · rintro ⟨hr, hlt⟩
    obtain ⟨rfl, rfl⟩ := ha hr
    obtain ⟨rfl, rfl⟩ := ha' hr
    have habs : |r.value - r.expected| = r.value - r.expected := abs_of_nonneg (by linarith)
    have := v2Delta_mono hu h0 hst ht (by rw [habs]; linarith)
    rw [habs] at this
    linarith
  · rintro ⟨hr, hlt⟩
    obtain ⟨rfl, rfl⟩ := ha hr
    obtain ⟨rfl, rfl⟩ := ha' hr
    have habs : |r.value - r.expected| = -(r.value - r.expected) := abs_of_nonpos (by linarith)
    have := v2Delta_mono hu h0 hst ht (by rw [habs]; linarith)
    rw [habs] at this
    linarith

theorem getMargins_mono {rows : List Row} {model : ModelType} {bv : BoundaryVersion} {s t : Int} (h0 : 0 ≤ s)
    (hst : s ≤ t) (ht : t ≤ 100) {outs : List Out} (h : getMargins rows s model bv = .ok outs) :
    ∃ outs', getMargins rows t model bv = .ok outs' ∧ List.Forall₂ Kept outs outs' := by
  obtain ⟨outs', h'⟩ := C32_margins_computed rows (by omega : 0 ≤ t) ht model bv
  refine ⟨outs', h', ?_⟩
  unfold getMargins at h h'
  split at h
  · rename_i hb
    rw [if_pos hb] at h'
    cases h
    cases h'
    exact marginsV1_mono hst ht
  · rename_i hb
    rw [if_neg hb] at h'
    have a := mapM_forall₂ h
    have b := mapM_forall₂ h'
    rw [List.forall₂_iff_get] at a b ⊢
    refine ⟨by omega, ?_⟩
    intro i hi hi'
    obtain ⟨um, lm, c1, e1⟩ := pointV2_eq (a.2 i (by omega) hi)
    obtain ⟨um', lm', c2, e2⟩ := pointV2_eq (b.2 i (by omega) hi')
    obtain ⟨k1, k2⟩ := v2_kept h0 hst ht c1 c2
    rw [e1, e2]
    refine ⟨rfl, ?_, ?_, ?_⟩ <;> simp only [Bool.or_eq_true, Bool.and_eq_true, decide_eq_true_eq]
    · rintro (h | h)
      · exact .inl ⟨h.1, k2 h⟩
      · exact .inr ⟨h.1, k1 h⟩
    · exact fun h => ⟨h.1, k1 h⟩
    · exact fun h => ⟨h.1, k2 h⟩

theorem getMarginsLast_mono {rows : List Row} {model : ModelType} {bv : BoundaryVersion} {s t : Int} (h0 : 0 ≤ s)
    (hst : s ≤ t) (ht : t ≤ 100) {o : Out} (h : getMarginsLast rows s model bv = .ok o) :
    ∃ o', getMarginsLast rows t model bv = .ok o' ∧ Kept o o' := by
  unfold getMarginsLast at h ⊢
  split at h
  · rename_i hb
    rw [if_pos hb]
    split at h
    · rename_i o1 ho
      cases h
      have hm : List.Forall₂ (fun a b => Kept b a) (marginsV1 rows t model) (marginsV1 rows s model) :=
        (marginsV1_mono (rows := rows) (model := model) hst ht).flip
      obtain ⟨o', h1, h2⟩ := forall₂_getLast hm ho
      rw [h1]
      exact ⟨o', rfl, h2⟩
    · cases h
  · rename_i hb
    rw [if_neg hb]
    split at h
    · rename_i x hx
      obtain ⟨um, lm, c1, rfl⟩ := pointV2Last_eq h
      obtain ⟨-, -, hu, -, -⟩ := calculateMargin_ok c1
      have h30 : 3 / 10 ≤ x.2 := C32_units_bounded _ _ x.2
        (List.of_mem_zip (b := x.2) (a := x.1) (List.mem_of_getLast? hx)).2
      obtain ⟨m, hm⟩ := C32_margin_computed h30 (by omega : 0 ≤ t) ht x.1.value x.1.expected x.1.anom
      obtain ⟨o', ho'⟩ : ∃ o', pointV2Last t x.1 x.2 = .ok o' := by
        simp [pointV2Last, hm, bind, Except.bind, pure, Except.pure]
      refine ⟨o', ho', ?_⟩
      obtain ⟨um', lm', c2, rfl⟩ := pointV2Last_eq ho'
      obtain ⟨k1, k2⟩ := v2_kept h0 hst ht c1 c2
      refine ⟨rfl, ?_, ?_, ?_⟩ <;> simp only [Bool.or_eq_true, Bool.and_eq_true, decide_eq_true_eq]
      · rintro (h | h)
        · exact .inl ⟨h.1, k2 h⟩
        · exact .inr ⟨h.1, k1 h⟩
      · exact fun h => ⟨h.1, k1 h⟩
      · exact fun h => ⟨h.1, k2 h⟩
    · cases h

/-- two items about the same point, the second reporting at least what the first does -/
structure Item.Kept (a b : Item) : Prop where
  timestamp : b.timestamp = a.timestamp
  expected : b.expected = a.expected
  period : b.period = a.period
  suggested : b.suggested = a.suggested
  anom : a.anom = true → b.anom = true
  pos : a.pos = true → b.pos = true
  neg : a.neg = true → b.neg = true

theorem mkItem_kept {ts : PyVal} {o o' : Out} {p : Nat} {sw : Option Nat} (h : Kept o o') :
    (mkItem ts o p sw).Kept (mkItem ts o' p sw) := ⟨rfl, h.expected, rfl, rfl, h.anom, h.pos, h.neg⟩

theorem finish_mono {mode : PyVal} {stamps : List PyVal} {rows : List Row} {per : Nat} {model : ModelType}
    {bv : BoundaryVersion} {g : Granularity} {s t : Int} (h0 : 0 ≤ s) (hst : s ≤ t) (ht : t ≤ 100)
    {items : List Item} (h : finish mode stamps rows per model s bv g = .ok items) :
    ∃ items', finish mode stamps rows per model t bv g = .ok items' ∧ List.Forall₂ Item.Kept items items' := by
  unfold finish at h ⊢
  split at h
  · cases h
  · rename_i hl
    rw [if_neg hl]
    have latest : ∀ {items : List Item}, (do
        let o ← getMarginsLast rows s model bv
        match stamps.getLast? with
        | some ts => pure [mkItem ts o per (some (suggestedWindow per g))]
        | none => .error .indexError : Except PyErr (List Item)) = .ok items →
        ∃ items', (do
        let o ← getMarginsLast rows t model bv
        match stamps.getLast? with
        | some ts => pure [mkItem ts o per (some (suggestedWindow per g))]
        | none => .error .indexError : Except PyErr (List Item)) = .ok items' ∧
          List.Forall₂ Item.Kept items items' := by
      intro items h
      obtain ⟨o, ho, h⟩ := ebind_ok.1 h
      obtain ⟨o', ho', hk⟩ := getMarginsLast_mono h0 hst ht ho
      split at h
      · rename_i ts hts
        have e := epure_ok.1 h
        subst e
        refine ⟨[mkItem ts o' per (some (suggestedWindow per g))], ?_, ?_⟩
        · simp [ho', bind, Except.bind, pure, Except.pure]
        · exact .cons (mkItem_kept hk) .nil
      · cases h
    cases mode with
    | dtype m =>
      cases m with
      | ENTIRE =>
        dsimp only at h ⊢
        obtain ⟨outs, ho, h⟩ := ebind_ok.1 h
        obtain ⟨outs', ho', hk⟩ := getMargins_mono h0 hst ht ho
        have e := epure_ok.1 h
        subst e
        refine ⟨List.zipWith (fun ts o => mkItem ts o per none) stamps outs', ?_, ?_⟩
        · simp [ho', bind, Except.bind, pure, Except.pure]
        · clear ho ho' h hl latest
          clear h
          induction hk generalizing stamps with
          | nil => simp
          | cons h1 _ ih =>
            cases stamps with
            | nil => simp
            | cons ts stamps => exact .cons (mkItem_kept h1) ih
      | LATEST => exact latest h
    | _ => exact latest h

/-! ## The theorems about requests -/

theorem asInt_of_isInt {v : PyVal} {i : Int} (h : IsInt v i) : v.asInt? = some i := by
  cases h <;> rfl

/-- changing the sensitivity from `s` to a larger `t` keeps what is reported -/
theorem runModel_mono {E : Env} {m : PyVal} {hasTs hasValue : Bool} {rows : List (PyVal × PyVal)} {mp : ModelParams}
    {p p' : Params} {v w : PyVal} (ho : Off "sensitivity" (some v) (some w) p p') {s t : Int} (hv : IsInt v s)
    (hw : IsInt w t) (h0 : 0 ≤ s) (hst : s ≤ t) (ht : t ≤ 100) {items : List Item}
    (h : runModel E m hasTs hasValue rows mp p = .ok items) :
    ∃ items', runModel E m hasTs hasValue rows mp p' = .ok items' ∧ List.Forall₂ Item.Kept items items' := by
  obtain ⟨vs, M, rs, per, model, h1, h2, h3, h4⟩ := runModel_ok h
  have es : paramSens p = s := by simp [paramSens, ho.left, asInt_of_isInt hv]
  have et : paramSens p' = t := by simp [paramSens, ho.right, asInt_of_isInt hw]
  have eb : paramBoundary p = paramBoundary p' := by
    unfold paramBoundary
    rw [ho.same _ (by decide)]
  have ep : paramPeriod p = paramPeriod p' := by
    unfold paramPeriod
    rw [ho.same _ (by decide)]
  rw [es] at h4
  obtain ⟨items', h5, h6⟩ := finish_mono h0 hst ht h4
  refine ⟨items', ?_, h6⟩
  unfold runModel
  rw [h1]
  simp only [lift, Bind.bind, Except.bind]
  rw [h2]
  simp only
  rw [← ep, h3]
  simp only
  rw [et, ← eb, h5]

/-- **C18** (sensitivity is monotone): raising the sensitivity of an answered request gives an answer too, item for
item about the same points, and every anomaly reported before is still reported, in the same direction. -/
theorem C18_sensitivity_monotone {E : Env} (hE : E.WF) {W : Wild} {d : Detector} {data : DataArg} {params : Params}
    {v w : PyVal} {s t : Int} (hv : IsInt v s) (hw : IsInt w t) (h0 : 0 ≤ s) (hst : s ≤ t) (ht : t ≤ 100)
    {items : List Item} (hno : params "indices" = none) (hf : FiniteFill E data params)
    (h : (predict E W d data (params.set "sensitivity" v)).outcome = .ok items) :
    ∃ items', (predict E W d data (params.set "sensitivity" w)).outcome = .ok items' ∧
      items'.length = items.length ∧
      ∀ (k : Nat) (a b : Item), items[k]? = some a → items'[k]? = some b →
        b.timestamp = a.timestamp ∧ b.expected = a.expected ∧ b.period = a.period ∧
        (a.anom = true → b.anom = true) ∧ (a.pos = true → b.pos = true) ∧ (a.neg = true → b.neg = true) := by
  have hno' : (params.set "sensitivity" v) "indices" = none := by
    rw [Params.set_ne _ _ (by decide)]; exact hno
  have hf' : FiniteFill E data (params.set "sensitivity" v) := hf.set v (by decide)
  obtain ⟨p1, r, m, h1, h2, h3⟩ := predict_cases h
  have hrun : runModel E m r.hasTs r.hasValue r.rows r.mp p1 = .ok items := by
    rcases h3 with h3 | ⟨h3, -⟩
    · exact h3
    · exfalso
      obtain ⟨hdata, hp⟩ := parseArg_ok h1
      rw [hdata] at hf'
      rcases hp.indices with hi | ⟨hi, vs, hvs⟩ | ⟨vs, idx, hval, hi⟩
      · rw [hno'] at hi; cases hi
      · have : runModel E m r.hasTs r.hasValue r.rows r.mp p1 = .error (.err .valueError) := by
          obtain ⟨l, hl, -⟩ := mapM_finite fun v hv => (hvs.finite v hv).imp fun _ h => h.1
          unfold runModel
          rw [hvs.values]
          simp [lift, Bind.bind, Except.bind, Model.init, hl, hi]
        rw [this] at h3
        simp at h3
      · exact run_modelled hE hp hf' hval hi m h3
  have hsim := sim_parseArg (k := "sensitivity") (by decide)
    (sim_sensitivity_values (asInt_of_isInt hv) ⟨h0, by omega⟩ (asInt_of_isInt hw) ⟨by omega, ht⟩)
    (sim_fill (by decide) (by decide) (by decide) (by decide)) E data
    (params.set "sensitivity" v) (params.set "sensitivity" w) (off_set _ _ _ _)
  rcases e2 : parseArg E data (params.set "sensitivity" w) with ⟨p2, r2⟩
  rw [h1, e2] at hsim
  obtain ⟨e, hoff⟩ := hsim
  simp only at e hoff
  subst e
  obtain ⟨items', h5, h6⟩ := runModel_mono hoff hv hw h0 hst ht hrun
  have hm : currentMode d.mode p2 = some m := by
    rw [← h2]
    unfold currentMode
    rw [hoff.same _ (by decide)]
  refine ⟨items', predict_of_run e2 hm h5, h6.length_eq.symm, ?_⟩
  intro k a b ha hb
  obtain ⟨i1, rfl⟩ := List.getElem?_eq_some_iff.1 ha
  obtain ⟨i2, rfl⟩ := List.getElem?_eq_some_iff.1 hb
  have hk := (List.forall₂_iff_get.1 h6).2 k i1 i2
  exact ⟨hk.timestamp, hk.expected, hk.period, hk.anom, hk.pos, hk.neg⟩

/-! ### sensitivity 100 -/

theorem marginsV1_full {rows : List Row} {model : ModelType} :
    List.Forall₂ (fun r o => o.anom = r.anom) rows (marginsV1 rows 100 model) := by
  rw [marginsV1_eq, List.forall₂_iff_get]
  have l1 := length_v1Margins 100 rows model
  refine ⟨by rw [length_refineMargins l1], ?_⟩
  intro i hi hi'
  simp only [List.get_eq_getElem]
  rw [getElem_refineMargins l1 hi]
  simp [refinePoint]

theorem v2_full {r : Row} (hr : r.Ready) {unit um lm : ℚ}
    (h : calculateMargin unit 100 r.value r.expected r.anom = .ok (um, lm)) :
    ((r.anom && decide (r.value < r.expected - lm)) || (r.anom && decide (r.expected + um < r.value))) = r.anom := by
  obtain ⟨-, -, -, ha, -⟩ := calculateMargin_ok h
  cases e : r.anom
  · rfl
  · obtain ⟨rfl, rfl⟩ := ha e
    have hd : v2Delta unit 100 r.value r.expected = 0 := by
      unfold v2Delta
      rw [if_neg (by norm_num), show factors.getD (100 : Int).toNat 0 = 0 from factors_last, mul_zero]
    rw [hd]
    rcases lt_or_gt_of_ne (hr.ne e) with h | h <;> simp [h]

theorem getMargins_full {rows : List Row} {model : ModelType} {bv : BoundaryVersion} {outs : List Out}
    (hr : ∀ r ∈ rows, r.Ready) (h : getMargins rows 100 model bv = .ok outs) :
    List.Forall₂ (fun r o => o.anom = r.anom) rows outs := by
  unfold getMargins at h
  split at h
  · cases h
    exact marginsV1_full
  · have h' := forall₂_zip_left (mapM_forall₂ h) (length_rowUnits rows)
    rw [List.forall₂_iff_get] at h' ⊢
    refine ⟨h'.1, ?_⟩
    intro i hi hi'
    obtain ⟨u, hu⟩ := h'.2 i hi hi'
    obtain ⟨um, lm, h1, e⟩ := pointV2_eq hu
    rw [e]
    exact v2_full (hr _ (List.get_mem _ _)) h1

theorem getMarginsLast_full {rows : List Row} {model : ModelType} {bv : BoundaryVersion} {o : Out}
    (hr : ∀ r ∈ rows, r.Ready) (h : getMarginsLast rows 100 model bv = .ok o) :
    ∃ r, rows.getLast? = some r ∧ o.anom = r.anom := by
  unfold getMarginsLast at h
  split at h
  · split at h
    · rename_i o' ho
      cases h
      exact forall₂_getLast marginsV1_full ho
    · cases h
  · split at h
    · rename_i x hx
      obtain ⟨um, lm, h1, rfl⟩ := pointV2Last_eq h
      have hl := (getLast?_zip (length_rowUnits rows) hx).1
      exact ⟨x.1, hl, v2_full (hr _ (List.mem_of_getLast? hl)) h1⟩
    · cases h

theorem Trace.full_sensitivity {E : Env} (hE : E.WF) {d : Detector} {data : DataArg}
    {params : Params} {items : List Item} {v : PyVal} (hs : params "sensitivity" = some v) (hv : IsInt v 100)
    {m : DetectType} (hm : InMode d params m) (T : Trace E d data params items) :
    T.frame0.length = T.rows.length ∧ ∀ k it, items[k]? = some it → ∃ i r, Concerns m T.rows.length k i ∧
      T.frame0[i]? = some r ∧ (it.anom = true ↔ r.anom = true ∧ 1 / 10 ^ 8 ≤ |r.value - r.expected|) := by
  have hlen : T.frame0.length = T.rows.length := by
    have := (T.frameOk hE).values
    have h2 := (T.len hE).2.1
    rw [← h2, ← this]; simp
  refine ⟨hlen, ?_⟩
  intro k it hk
  have e100 : paramSens T.after = 100 := by
    rcases T.parsed.sensitivity with ⟨a, -⟩ | ⟨v', i, a, b, -, -, c⟩
    · rw [hs] at a; cases a
    · rw [hs] at a
      cases a
      simp [paramSens, c, asInt_of_isInt hv]
  have hfin := T.finished
  rw [e100, T.mode_eq hm] at hfin
  have key : ∃ i r, Concerns m T.rows.length k i ∧ (T.frame0.map clearNear)[i]? = some r ∧ it.anom = r.anom := by
    unfold finish at hfin
    split at hfin
    · cases hfin
    rename_i hl
    have hl := not_not.1 hl
    rw [length_rowStamps] at hl
    cases m with
    | ENTIRE =>
      dsimp only at hfin
      obtain ⟨outs, ho, hfin⟩ := ebind_ok.1 hfin
      have hfull := getMargins_full (T.ready hE) ho
      have e := epure_ok.1 hfin
      rw [← e, List.getElem?_zipWith_eq_some] at hk
      obtain ⟨ts, o, h1, h2, rfl⟩ := hk
      obtain ⟨h3, rfl⟩ := List.getElem?_eq_some_iff.1 h2
      have h4 : k < (T.frame0.map clearNear).length := by rw [hfull.length_eq]; exact h3
      exact ⟨k, _, rfl, List.getElem?_eq_getElem h4, (List.forall₂_iff_get.1 hfull).2 k h4 h3⟩
    | LATEST =>
      dsimp only at hfin
      obtain ⟨o, ho, hfin⟩ := ebind_ok.1 hfin
      obtain ⟨r, h1, h2⟩ := getMarginsLast_full (T.ready hE) ho
      split at hfin
      · have e := epure_ok.1 hfin
        rw [← e] at hk
        have hk0 : k = 0 := by
          have := (List.getElem?_eq_some_iff.1 hk).1
          simpa using this
        subst hk0
        simp only [List.getElem?_cons_zero, Option.some.injEq] at hk
        have hn := (T.len hE)
        refine ⟨T.rows.length - 1, r, ⟨rfl, by omega⟩, ?_, ?_⟩
        · rw [← hl, ← List.getLast?_eq_getElem?]; exact h1
        · rw [← hk]; exact h2
      · cases hfin
  obtain ⟨i, r, h1, h2, h3⟩ := key
  rw [List.getElem?_map] at h2
  obtain ⟨r0, h4, rfl⟩ := Option.map_eq_some_iff.1 h2
  refine ⟨i, r0, h1, h4, ?_⟩
  rw [h3, clearNear_anom]
  rfl

/-- **C19** (sensitivity 100 reports everything the detector flagged). `T.frame0` is the frame returned by the
detection stage (`AnomalyDetectionModel`) for this request, before points equal to their expectation are cleared. -/
theorem C19_full_sensitivity {E : Env} (hE : E.WF) {W : Wild} {d : Detector} {data : DataArg}
    {params : Params} {items : List Item} {v : PyVal} (hs : params "sensitivity" = some v) (hv : IsInt v 100)
    (hno : params "indices" = none) (hf : FiniteFill E data params) {m : DetectType} (hm : InMode d params m)
    (h : (predict E W d data params).outcome = .ok items) :
    ∃ T : Trace E d data params items, T.frame0.length = T.rows.length ∧ ∀ k it, items[k]? = some it → ∃ i r, Concerns m T.rows.length k i ∧
      T.frame0[i]? = some r ∧ (it.anom = true ↔ r.anom = true ∧ 1 / 10 ^ 8 ≤ |r.value - r.expected|) := by
  obtain ⟨T⟩ := predict_trace hE hno hf h
  exact ⟨T, T.full_sensitivity hE hs hv hm⟩

/-! ### the suggested window -/

/-- **C23** (suggested window): in LATEST mode it is `4 * period + 1`, or the default window of the requested
granularity plus one when the period is 0; in ENTIRE mode there is none. `name` is the requested granularity. -/
theorem C23_suggested_window {E : Env} (hE : E.WF) {W : Wild} {d : Detector} {data : DataArg}
    {params : Params} {items : List Item} (hno : params "indices" = none) (hf : FiniteFill E data params)
    {name : String} (hg : params "granularity" = some (.str name) ∨ (params "granularity" = none ∧ name = "none"))
    (hm : InMode d params .LATEST) (h : (predict E W d data params).outcome = .ok items) :
    ∀ it ∈ items, ∃ w, it.suggested = some w ∧ 0 < w ∧
      (it.period ≠ 0 → w = 4 * it.period + 1) ∧ (it.period = 0 → w = defaultWindow name + 1) := by
  obtain ⟨T⟩ := predict_trace hE hno hf h
  have hfin := T.finished
  rw [T.mode_eq hm] at hfin
  obtain ⟨h1, it, rfl, h2⟩ := finish_latest (paramSens_range T.parsed).2 (T.ready hE) hfin
  obtain ⟨r, o, ts, -, -, -, e⟩ := h2.ex
  have hwin : defaultGranWindow T.mp.granularity = defaultWindow name := by
    rcases T.parsed.gran with ⟨a, b⟩ | ⟨s, a, b⟩
    · rcases hg with hg | ⟨-, rfl⟩
      · rw [hg] at a; cases a
      · rw [b]; decide
    · rcases hg with hg | ⟨hg, -⟩
      · rw [hg] at a
        cases a
        have hn := ofName_mem b
        subst hn
        cases T.mp.granularity <;> decide
      · rw [hg] at a; cases a
  intro it' hit
  rw [List.mem_singleton] at hit
  subst hit
  have e1 : it'.suggested = some (suggestedWindow T.period T.mp.granularity) := congrArg Item.suggested e
  have e2 : it'.period = T.period := congrArg Item.period e
  refine ⟨_, e1, ?_, ?_, ?_⟩
  · unfold suggestedWindow
    split <;> omega
  · intro hp
    rw [e2] at hp ⊢
    simp [suggestedWindow, hp]
  · intro hp
    rw [e2] at hp
    simp [suggestedWindow, hp, hwin]

/-! ### a concrete case -/

/-- With sensitivity 60 the two spikes are reported, with sensitivity 100 a third point as well. -/
example : okFlags (predict demoEnv demoWild entireDetector (.frame true true gapRows) (gapParams 100)) =
    some ((List.range 14).map fun i => (decide (i = 7 ∨ i = 11 ∨ i = 13), decide (i = 7 ∨ i = 13),
      decide (i = 11))) := by decide +kernel

/-- `gapParams` differ only in the sensitivity, so C18 applies to the pair 60, 100 -/
example (s t : Int) : gapParams t = (gapParams s).set "sensitivity" (.int t) := by
  funext k
  simp only [gapParams, Params.ofList, Params.set]
  split <;> rename_i h1
  · subst h1; simp
  · split <;> rename_i h2
    · subst h2; simp
    · split <;> rename_i h3
      · subst h3; simp
      · split <;> rfl

/-- the suggested windows of the latest point: 4 * 2 + 1, and 1440 + 1 without a period -/
example : (match (predict demoEnv demoWild latestDetector (.frame true true gapRows) (gapParams 60)).outcome,
      (predict demoEnv demoWild latestDetector (.frame true true gapRows)
        (Params.ofList [("granularity", .str "secondly")])).outcome with
    | .ok a, .ok b => some (a.map (·.suggested), b.map (·.suggested))
    | _, _ => none) = some ([some 9], [some 1441]) := by decide +kernel

/-- units of a trend with a flagged point -/
example : boundaryUnits [1, 2, 3, 40, 5, 6, 7, 8] [false, false, false, true, false, false, false, false] ≠ [] ∧
    (∀ u ∈ boundaryUnits [0, 0, 0] [false, false, true], u = 3 / 10) := by decide +kernel

end Verif
