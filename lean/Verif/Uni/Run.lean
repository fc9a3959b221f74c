import Verif.Uni.Inv

/-!
# Inversion of the detection run

What a successful run of `AnomalyDetectionModel` consists of.
-/

namespace Verif

theorem ebind_ok {ε α β} {x : Except ε α} {f : α → Except ε β} {b : β} :
    (x >>= f) = .ok b ↔ ∃ a, x = .ok a ∧ f a = .ok b := by
  cases x <;> simp [Bind.bind, Except.bind]

theorem epure_ok {ε α} {a b : α} : (pure a : Except ε α) = .ok b ↔ a = b := by
  simp [pure, Except.pure]

theorem ethrow_ok {ε α} {e : ε} {b : α} : (throw e : Except ε α) = .ok b ↔ False := by
  simp [throw, throwThe, MonadExceptOf.throw]

theorem emap_ok {ε α β} {x : Except ε α} {f : α → β} {b : β} :
    x.map f = .ok b ↔ ∃ a, x = .ok a ∧ f a = b := by
  cases x <;> simp [Except.map]

theorem lift_ok {α} {x : Except PyErr α} {a : α} : lift x = .ok a ↔ x = .ok a := by
  cases x <;> simp [lift]

theorem mapM_id_some {l : List (Option ℚ)} {full : List ℚ} (h : l.mapM id = some full) :
    l = full.map some := by
  induction l generalizing full with
  | nil => simp at h; subst h; rfl
  | cons o t ih =>
    rw [List.mapM_cons] at h
    obtain ⟨q, hq, h⟩ := Option.bind_eq_some_iff.1 h
    obtain ⟨l', hl', h⟩ := Option.bind_eq_some_iff.1 h
    cases h
    simp only [id_eq] at hq
    rw [hq, ih hl']
    rfl

theorem mapM_id_map (full : List ℚ) : (full.map some).mapM id = some full := by
  induction full with
  | nil => rfl
  | cons q t ih => simp [List.mapM_cons, ih]

/-- the configuration of a run -/
structure Configured (E : Env) (vs : List PyFloat) (mp : ModelParams) (M : Model) : Prop where
  values : vs = M.values.map .fin
  fill : ∃ l idx, mp.indices = .list l ∧ PyVal.asIntList? l = some idx ∧ FillProc.init idx M.values = .ok M.fill
  mode : M.mode = mp.fillMode.getD .auto
  fixed : M.fixed = mp.fixed
  gran : M.gran = mp.granularity
  interval : M.interval = (mp.interval.getD 1).toNat
  ratio : M.ratio = mp.ratio.getD (.fin (25 / 100))
  alpha : M.alpha = mp.alpha.getD (.fin (5 / 100))
  threshold : M.threshold = mp.threshold.getD (.fin (35 / 10))
  majority : M.majority = (E.histMajority M.values).getD (-1)
  trend : M.needTrend = mp.needTrend
  spectrum : M.needSpectrum = mp.needSpectrum

theorem modelInit_ok {E : Env} {vs : List PyFloat} {mp : ModelParams} {M : Model}
    (h : Model.init E vs mp = .ok M) : Configured E vs mp M := by
  unfold Model.init at h
  split at h
  · cases h
  rename_i values hv
  split at h
  · rename_i l hl
    split at h
    · cases h
    rename_i idx hidx
    obtain ⟨P, hP, h⟩ := ebind_ok.1 h
    have := epure_ok.1 h
    subst this
    exact ⟨mapM_finite_eq hv, ⟨l, idx, hl, hidx, lift_ok.1 hP⟩, rfl, rfl, rfl, rfl, rfl, rfl, rfl, rfl, rfl, rfl⟩
  · cases h

theorem runModel_ok {E : Env} {mode : PyVal} {hasTs hasValue : Bool} {rows : List (PyVal × PyVal)}
    {mp : ModelParams} {p : Params} {items : List Item}
    (h : runModel E mode hasTs hasValue rows mp p = .ok items) :
    ∃ vs M rs per model, cellValues E hasValue rows = .ok vs ∧ Model.init E vs mp = .ok M ∧
      M.detect E mp.detector (paramPeriod p) (isLatest mode) = .ok (rs, per, model) ∧
      finish mode (rowStamps hasTs rows) rs per model (paramSens p) (paramBoundary p) mp.granularity = .ok items := by
  unfold runModel at h
  obtain ⟨vs, h1, h⟩ := ebind_ok.1 h
  obtain ⟨M, h2, h⟩ := ebind_ok.1 h
  obtain ⟨⟨rs, per, model⟩, h3, h⟩ := ebind_ok.1 h
  exact ⟨vs, M, rs, per, model, lift_ok.1 h1, h2, h3, lift_ok.1 h⟩

theorem detect_ok {E : Env} {M : Model} {det : Option (List (String × PyVal))} {period : Option Nat}
    {last : Bool} {rs : List Row} {per : Nat} {model : ModelType}
    (h : M.detect E det period last = .ok (rs, per, model)) :
    ∃ rows source, M.select E period last = .ok (rows, per, model, source) ∧ rs = rows.map clearNear := by
  unfold Model.detect at h
  simp only at h
  split at h
  · cases h
  · obtain ⟨⟨rows, p, md, source⟩, h1, h⟩ := ebind_ok.1 h
    obtain ⟨u, -, h⟩ := ebind_ok.1 h
    have := epure_ok.1 h
    simp only [Prod.mk.injEq] at this
    obtain ⟨rfl, rfl, rfl⟩ := this
    exact ⟨rows, source, h1, rfl⟩

/-- the fill modes that are executed even without a period -/
def FillUpMode.always (m : FillUpMode) : Prop :=
  m = .fixed ∨ m = .use_last ∨ m = .previous ∨ m = .linear

/-- a successful detection with model selection -/
structure Selected (E : Env) (M : Model) (asked : Option Nat) (last : Bool) (rows : List Row) (p : Nat)
    (model : ModelType) (full : Option (List ℚ × List Bool)) (ratio : ℚ) (rows0 : List Row) : Prop where
  per : asked = some p ∨ (asked = none ∧ ((1 / 2 < M.fill.missingRatio ∧ p = 0) ∨
    (M.fill.missingRatio ≤ 1 / 2 ∧ ∃ src, M.detectPeriod E false = .ok (p, src))))
  dense : 1 < p → M.fill.missingRatio ≤ 1 / 2
  fills : (1 < p ∨ M.mode.always) ∧ M.filled E M.mode p = .ok full ∨ (¬ (1 < p ∨ M.mode.always) ∧ full = none)
  finite : M.maxRatio last = .fin ratio
  run : M.run E ((full.map (·.1)).getD M.values) ratio p last = .ok (rows0, model)
  out : rows = match full with
    | some (_, tags) => dropFilled rows0 tags
    | none => rows0

theorem select_ok {E : Env} {M : Model} {asked : Option Nat} {last : Bool} {rows : List Row} {p : Nat}
    {model : ModelType} {source : Option Nat} (h : M.select E asked last = .ok (rows, p, model, source)) :
    ∃ full ratio rows0, Selected E M asked last rows p model full ratio rows0 := by
  unfold Model.select at h
  obtain ⟨⟨q, src⟩, h1, h⟩ := ebind_ok.1 h
  simp only at h
  have hper : asked = some q ∨ (asked = none ∧ ((1 / 2 < M.fill.missingRatio ∧ q = 0) ∨
      (M.fill.missingRatio ≤ 1 / 2 ∧ ∃ src, M.detectPeriod E false = .ok (q, src)))) := by
    unfold Model.usedPeriod at h1
    split at h1
    · cases h1
      exact .inl rfl
    · refine .inr ⟨rfl, ?_⟩
      split at h1
      · rename_i hm
        cases h1
        exact .inl ⟨hm, rfl⟩
      · rename_i hm
        obtain ⟨r, hr, h1⟩ := emap_ok.1 h1
        simp only [Prod.mk.injEq] at h1
        refine .inr ⟨not_lt.1 hm, r.2, ?_⟩
        rw [hr, ← h1.1]
  obtain ⟨full, hfull, h⟩ := ebind_ok.1 h
  unfold Model.usedSeries at hfull
  split at hfull
  · cases hfull
  rename_i hdense
  split at h
  · rename_i ratio hratio
    obtain ⟨⟨rows0, md⟩, hrun, h⟩ := ebind_ok.1 h
    have := epure_ok.1 h
    simp only [Prod.mk.injEq] at this
    obtain ⟨e1, rfl, rfl, rfl⟩ := this
    refine ⟨full, ratio, rows0, hper, ?_, ?_, hratio, lift_ok.1 hrun, ?_⟩
    · intro hp
      by_contra hc
      exact hdense ⟨hp, not_le.1 hc⟩
    · split at hfull
      · rename_i hc
        exact .inl ⟨hc, hfull⟩
      · rename_i hc
        cases hfull
        exact .inr ⟨hc, rfl⟩
    · rw [← e1]
      cases full <;> rfl
  · exact (ethrow_ok.1 h).elim

theorem filled_ok {E : Env} {M : Model} {mode : FillUpMode} {period : Nat} {full : Option (List ℚ × List Bool)}
    (h : M.filled E mode period = .ok full) :
    (full = none ∧ fillUpOnDemand E.spline M.fill mode (M.fixed.bind finite?) period = .ok none) ∨
    ∃ l tags, full = some (l, tags) ∧
      fillUpOnDemand E.spline M.fill mode (M.fixed.bind finite?) period = .ok (some (l.map some, tags)) := by
  unfold Model.filled at h
  split at h
  · cases h
  · obtain ⟨r, hr, h⟩ := ebind_ok.1 h
    have hr := lift_ok.1 hr
    split at h
    · exact .inl ⟨(epure_ok.1 h).symm, hr⟩
    · split at h
      · rename_i fl hfl
        have := epure_ok.1 h
        subst this
        exact .inr ⟨fl, _, rfl, by rw [hr, mapM_id_some hfl]⟩
      · cases h

end Verif
