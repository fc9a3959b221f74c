import Verif.Props.Calls

/-!
# Rejected requests (C08)
-/

namespace Verif

open Spec PM

theorem admissible_iff (p : Params) : Admissible p ↔ ∀ c ∈ checks p, c.2 := by
  constructor
  · intro h c hc
    unfold checks at hc
    rw [List.mem_cons, List.mem_cons, List.mem_cons, List.mem_cons, List.mem_cons, List.mem_cons, List.mem_cons,
      List.mem_cons, List.mem_cons, List.mem_cons, List.mem_cons, List.mem_singleton] at hc
    rcases hc with rfl | rfl | rfl | rfl | rfl | rfl | rfl | rfl | rfl | rfl | rfl | rfl
    exacts [h.granularity, h.customInterval, h.period, h.alpha, h.maxAnomalyRatio, h.sensitivity, h.threshold,
      h.imputeMode, h.imputeFixedValue, h.fillUpMode, h.fixedValue, h.boundaryVersion]
  · intro h
    simp only [checks, List.forall_mem_cons, List.not_mem_nil, false_implies, implies_true, and_true] at h
    obtain ⟨h1, h2, h3, h4, h5, h6, h7, h8, h9, h10, h11, h12⟩ := h
    exact ⟨h1, h2, h3, h4, h5, h6, h7, h8, h9, h10, h11, h12⟩

theorem firstFailure_iff (l : List (String × Prop)) : (∃ c, FirstFailure l c) ↔ ¬ ∀ c ∈ l, c.2 := by
  induction l with
  | nil => simp [FirstFailure]
  | cons x t ih =>
    obtain ⟨c, ok⟩ := x
    simp only [FirstFailure, List.forall_mem_cons, not_and_or, ← ih]
    constructor
    · rintro ⟨d, ⟨h, -⟩ | ⟨-, h⟩⟩
      · exact .inl h
      · exact .inr ⟨d, h⟩
    · rintro (h | ⟨d, h⟩)
      · exact ⟨c, .inl ⟨h, rfl⟩⟩
      · by_cases hok : ok
        · exact ⟨d, .inr ⟨hok, h⟩⟩
        · exact ⟨c, .inl ⟨hok, rfl⟩⟩

/-! ### stages that stop -/

/-- `x` ends on `p` with an early return and the given code -/
def Stops {α} (x : PM α) (p : Params) (c : String) : Prop := ∃ p', x p = (p', .early (some (some c)))

theorem stops_bind {α β} {x : PM α} {f : α → PM β} {p : Params} {c : String} (h : Stops x p c) :
    Stops (x >>= f) p c := by
  obtain ⟨p', h⟩ := h
  refine ⟨p', ?_⟩
  show PM.bind x f p = _
  unfold PM.bind
  rw [h]

theorem stops_after {α β} {x : PM α} {f : α → PM β} {p p1 : Params} {a : α} {c : String} (h : x.Returns p p1 a)
    (h2 : Stops (f a) p1 c) : Stops (x >>= f) p c := by
  unfold Stops
  rw [run_bind h]
  exact h2

theorem stops_get {β} {f : Params → PM β} {p : Params} {c : String} (h : Stops (f p) p c) :
    Stops (PM.get >>= f) p c := h

theorem stops_early {α} (p : Params) (c : String) : Stops (PM.early c : PM α) p c := ⟨p, rfl⟩

theorem hashable_of {p : Params} {k : String} (h : Lookable p k) {v : PyVal} (hv : p k = some v) :
    v.hashable = true := by
  obtain ⟨h1, h2⟩ := h v hv
  cases v with
  | list l => exact absurd rfl (h1 l)
  | dict d => exact absurd rfl (h2 d)
  | _ => rfl

theorem granularity_stops {p : Params} (hh : Lookable p "granularity")
    (h : ¬ (Absent p "granularity" ∨ ∃ s ∈ granularityNames, p "granularity" = some (.str s))) :
    Stops parseGranularity p "InvalidGranularity" := by
  unfold parseGranularity
  apply stops_get
  split
  · rename_i e; exact absurd (.inl e) h
  · rename_i s e
    split
    · rename_i g hg
      exact absurd (.inr ⟨s, ofName_names hg, e⟩) h
    · exact stops_early _ _
  · rename_i v e
    rw [if_pos (hashable_of hh e)]
    exact stops_early _ _

theorem interval_stops {p : Params}
    (h : ¬ (Absent p "customInterval" ∨ ∃ v i, p "customInterval" = some v ∧ IsInt v i ∧ 1 ≤ i)) :
    Stops parseInterval p "InvalidCustomInterval" := by
  unfold parseInterval
  apply stops_get
  split
  · rename_i e; exact absurd (.inl e) h
  · rename_i v e
    split
    · rename_i i hi
      split
      · exact stops_early _ _
      · exact absurd (.inr ⟨v, i, e, asInt_isInt hi, by omega⟩) h
    · exact stops_early _ _

theorem period_stops {p : Params}
    (h : ¬ (Absent p "period" ∨ ∃ v i, p "period" = some v ∧ IsInt v i ∧ 0 ≤ i)) :
    Stops parsePeriod p "InvalidPeriod" := by
  unfold parsePeriod
  apply stops_get
  split
  · rename_i e; exact absurd (.inl e) h
  · rename_i v e
    split
    · rename_i i hi
      split
      · exact stops_early _ _
      · exact absurd (.inr ⟨v, i, e, asInt_isInt hi, by omega⟩) h
    · exact stops_early _ _

theorem alpha_stops {p : Params} (h : ¬ (Absent p "alpha" ∨
      ∃ v f, p "alpha" = some v ∧ IsNumber v f ∧ f ≠ .ninf ∧ ∀ q, f = .fin q → 0 < q)) :
    Stops parseAlpha p "InvalidModelArgument" := by
  unfold parseAlpha
  apply stops_get
  split
  · rename_i e; exact absurd (.inl e) h
  · rename_i v e
    split
    · rename_i f hf
      split
      · exact stops_early _ _
      · rename_i hle
        refine absurd (.inr ⟨v, f, e, asNumber_isNumber hf, ?_, ?_⟩) h
        · rintro rfl
          simp [PyFloat.le] at hle
        · rintro q rfl
          simpa [PyFloat.le] using hle
    · exact stops_early _ _

theorem ratio_stops {p : Params} (h : ¬ (Absent p "maxAnomalyRatio" ∨ ∃ f, p "maxAnomalyRatio" = some (.float f) ∧
      (f = .nan ∨ ∃ q : ℚ, f = .fin q ∧ 0 < q ∧ q ≤ 49 / 100))) :
    Stops parseRatio p "InvalidModelArgument" := by
  unfold parseRatio
  apply stops_get
  split
  · rename_i e; exact absurd (.inl e) h
  · rename_i v e
    split
    · rename_i f hf
      split
      · exact stops_early _ _
      · rename_i hle
        simp only [Bool.or_eq_true, not_or, Bool.not_eq_true] at hle
        cases v <;> simp [PyVal.asFloat?] at hf
        subst hf
        refine absurd (.inr ⟨_, e, ?_⟩) h
        rename_i f
        cases f with
        | fin q => exact .inr ⟨q, rfl, by simpa [PyFloat.le] using hle.1, by simpa [PyFloat.lt] using hle.2⟩
        | pinf => simp [PyFloat.lt] at hle
        | ninf => simp [PyFloat.le] at hle
        | nan => exact .inl rfl
    · exact stops_early _ _

theorem sensitivity_stops {p : Params} (h : ¬ (Absent p "sensitivity" ∨
      ∃ v i, p "sensitivity" = some v ∧ IsInt v i ∧ 0 ≤ i ∧ i ≤ 100)) :
    Stops parseSensitivity p "InvalidModelArgument" := by
  unfold parseSensitivity
  apply stops_get
  split
  · rename_i e; exact absurd (.inl e) h
  · rename_i v e
    split
    · rename_i i hi
      split
      · exact stops_early _ _
      · exact absurd (.inr ⟨v, i, e, asInt_isInt hi, by omega, by omega⟩) h
    · exact stops_early _ _

theorem threshold_stops {p : Params} (h : ¬ (Absent p "threshold" ∨ ∃ f, p "threshold" = some (.float f))) :
    Stops parseThreshold p "InvalidModelArgument" := by
  unfold parseThreshold
  apply stops_get
  split
  · rename_i e; exact absurd (.inl e) h
  · rename_i v e
    split
    · rename_i f hf
      cases v <;> simp [PyVal.asFloat?] at hf
      exact absurd (.inr ⟨_, e⟩) h
    · exact stops_early _ _

/-- the four checks of the imputation parameters -/
def fillChecks (p : Params) : List (String × Prop) := ((checks p).drop 7).take 4

theorem fill_stops {p : Params} {c : String} (h : FirstFailure (fillChecks p) c) : Stops parseFill p c := by
  simp only [fillChecks, checks, List.drop_succ_cons, List.drop_zero, List.take_succ_cons, List.take_zero,
    FirstFailure, and_false, or_false] at h
  unfold parseFill
  apply stops_get
  rcases h with ⟨h, rfl⟩ | ⟨h0, ⟨h, rfl⟩ | ⟨h1, ⟨h, rfl⟩ | ⟨h2, h, rfl⟩⟩⟩
  · split
    · rename_i v e
      split
      · rename_i s
        split
        · exact stops_early _ _
        · rename_i m; exact absurd (.inr ⟨s, ofValue_names m, presentKey_some e⟩) h
        · rename_i m; exact absurd (.inr ⟨s, ofValue_names m, presentKey_some e⟩) h
        · rename_i m; exact absurd (.inr ⟨s, ofValue_names m, presentKey_some e⟩) h
      · exact stops_early _ _
    · rename_i e
      exact absurd (.inl (presentKey_absent e)) h
  · push Not at h
    obtain ⟨e, h⟩ := h
    rw [presentKey_str e]
    have e2 : FillUpMode.ofValue "fixed" = some .fixed := by decide
    simp only [e2]
    split
    · exact stops_early _ _
    · rename_i f hf
      obtain ⟨v, hv, hf⟩ := Option.bind_eq_some_iff.1 hf
      exact absurd (asNumber_isNumber hf) (h v f hv)
  · push Not at h
    obtain ⟨e, h, h'⟩ := h
    rw [presentKey_none e]
    simp only
    split
    · rename_i e; exact absurd (presentKey_absent e) h
    · rename_i v e
      split
      · rename_i s
        split
        · exact stops_early _ _
        · rename_i m; exact absurd (presentKey_some e) (h' s (ofValue_names m))
        · rename_i m; exact absurd (presentKey_some e) (h' s (ofValue_names m))
      · exact stops_early _ _
  · push Not at h
    obtain ⟨e, e1, h⟩ := h
    rw [presentKey_none e, presentKey_str e1]
    have e2 : FillUpMode.ofValue "fixed" = some .fixed := by decide
    simp only [e2]
    split
    · exact stops_early _ _
    · rename_i f hf
      obtain ⟨v, hv, hf⟩ := Option.bind_eq_some_iff.1 hf
      exact absurd (asNumber_isNumber hf) (h v f hv)

theorem boundary_stops {p : Params} (hh : Lookable p "boundaryVersion") (h : ¬ (AbsentOrNone p "boundaryVersion" ∨
      ∃ s ∈ ["V1", "V2", "V3"], p "boundaryVersion" = some (.str s))) :
    Stops parseBoundary p "InvalidBoundaryVersion" := by
  unfold parseBoundary
  apply stops_get
  apply stops_bind
  unfold boundaryName
  split
  · rename_i e; exact absurd (.inl (presentKey_absent e)) h
  · rename_i s e
    split
    · rename_i b hb
      refine absurd (.inr ⟨s, ?_, presentKey_some e⟩) h
      unfold BoundaryVersion.ofName at hb
      repeat' split at hb
      all_goals first
        | cases hb; done
        | (subst_vars; decide)
    · exact stops_early _ _
  · rename_i v e
    rw [if_pos (hashable_of hh (presentKey_some e))]
    exact stops_early _ _

theorem parseFill_returns {p : Params} (h : ∀ c ∈ fillChecks p, c.2) : ∃ o, parseFill.Returns p p o := by
  simp only [fillChecks, checks, List.drop_succ_cons, List.drop_zero, List.take_succ_cons, List.take_zero,
    List.forall_mem_cons, List.not_mem_nil, false_implies, implies_true, and_true] at h
  obtain ⟨h1, h2, h3, h4⟩ := h
  obtain ⟨o, ho⟩ := parseFill_complete (p := fun k => if k = "imputeMode" ∨ k = "imputeFixedValue" ∨
      k = "fillUpMode" ∨ k = "fixedValue" then p k else none) (by
    refine ⟨.inl ?_, .inl ?_, .inl ?_, .inl ?_, .inl ?_, .inl ?_, .inl ?_, ?_, ?_, ?_, ?_, .inl (.inl ?_)⟩
    · simp [Absent]
    · simp [Absent]
    · simp [Absent]
    · simp [Absent]
    · simp [Absent]
    · simp [Absent]
    · simp [Absent]
    · simpa [AbsentOrNone] using h1
    · simpa using h2
    · simpa [AbsentOrNone] using h3
    · simpa [AbsentOrNone] using h4
    · simp)
  have h0 := (parseFill_ok ho).2
  refine ⟨o, ?_⟩
  unfold parseFill at ho ⊢
  rw [get_bind] at ho ⊢
  have e1 : presentKey (fun k => if k = "imputeMode" ∨ k = "imputeFixedValue" ∨
      k = "fillUpMode" ∨ k = "fixedValue" then p k else none) "imputeMode" = presentKey p "imputeMode" :=
    presentKey_congr (by simp)
  have e2 : presentKey (fun k => if k = "imputeMode" ∨ k = "imputeFixedValue" ∨
      k = "fillUpMode" ∨ k = "fixedValue" then p k else none) "fillUpMode" = presentKey p "fillUpMode" :=
    presentKey_congr (by simp)
  rw [e1, e2] at ho
  simp only [true_or, or_true, if_true] at ho
  revert ho
  have : ∀ (x : PM (Option FillUpMode × Option PyFloat)), (∃ a, x = Pure.pure a) ∨ (∃ c, x = PM.early c) →
      ∀ {q}, x.Returns q q o → x.Returns p p o := by
    rintro x (⟨a, rfl⟩ | ⟨c, rfl⟩) q h
    · exact pure_ok.2 ⟨rfl, (pure_ok.1 h).2⟩
    · exact (early_ok.1 h).elim
  refine this _ ?_
  repeat' split
  all_goals first
    | exact .inl ⟨_, rfl⟩
    | exact .inr ⟨_, rfl⟩

theorem firstFailure_append {l m : List (String × Prop)} {c : String} :
    FirstFailure (l ++ m) c ↔ FirstFailure l c ∨ ((∀ x ∈ l, x.2) ∧ FirstFailure m c) := by
  induction l with
  | nil => simp [FirstFailure]
  | cons x t ih =>
    obtain ⟨d, ok⟩ := x
    simp only [List.cons_append, FirstFailure, ih, List.forall_mem_cons]
    tauto

theorem parse_stops {E : Env} {hasTs hasValue : Bool} {rows : List (PyVal × PyVal)} {p : Params}
    (hne : rows.length ≠ 0) (hg : Lookable p "granularity") (hb : Lookable p "boundaryVersion") {c : String}
    (h : FirstFailure (checks p) c) : Stops (parseArg E (.frame hasTs hasValue rows)) p c := by
  unfold parseArg
  simp only [hne, if_false]
  have split7 : checks p = (checks p).take 7 ++ (fillChecks p ++ (checks p).drop 11) := rfl
  rw [split7] at h
  have hfc : ∀ {q : Params}, q "imputeMode" = p "imputeMode" → q "imputeFixedValue" = p "imputeFixedValue" →
      q "fillUpMode" = p "fillUpMode" → q "fixedValue" = p "fixedValue" → fillChecks q = fillChecks p := by
    intro q e1 e2 e3 e4
    simp [fillChecks, checks, AbsentOrNone, e1, e2, e3, e4]
  rw [show (checks p).take 7 = [(checks p)[0]!, (checks p)[1]!, (checks p)[2]!, (checks p)[3]!, (checks p)[4]!,
    (checks p)[5]!, (checks p)[6]!] from rfl] at h
  simp only [List.cons_append, List.nil_append, FirstFailure] at h
  rcases h with ⟨h, rfl⟩ | ⟨c1, h⟩
  · exact stops_bind (granularity_stops hg h)
  obtain ⟨g, h1⟩ := parseGranularity_complete c1
  refine stops_after h1 ?_
  have f1 : ∀ k, k ≠ "granularity" → (p.set "granularity" (.gran g)) k = p k := fun k hk => Params.set_ne _ _ hk
  rcases h with ⟨h, rfl⟩ | ⟨c2, h⟩
  · refine stops_bind (interval_stops ?_)
    unfold Absent
    rw [f1 _ (by decide)]
    exact h
  obtain ⟨p2, iv, h2, f2⟩ := parseInterval_complete (p := p.set "granularity" (.gran g)) (by
    unfold Absent; rw [f1 _ (by decide)]; exact c2)
  refine stops_after h2 ?_
  have g2 : ∀ k, k ≠ "granularity" → k ≠ "customInterval" → p2 k = p k := fun k a b => by rw [f2 k b, f1 k a]
  rcases h with ⟨h, rfl⟩ | ⟨c3, h⟩
  · refine stops_bind (period_stops ?_)
    unfold Absent
    rw [g2 _ (by decide) (by decide)]
    exact h
  refine stops_after (parsePeriod_complete (p := p2) (by
    unfold Absent; rw [g2 _ (by decide) (by decide)]; exact c3)) ?_
  rcases h with ⟨h, rfl⟩ | ⟨c4, h⟩
  · refine stops_bind (alpha_stops ?_)
    unfold Absent
    rw [g2 _ (by decide) (by decide)]
    exact h
  obtain ⟨al, h4⟩ := parseAlpha_complete (p := p2) (by
    unfold Absent; rw [g2 _ (by decide) (by decide)]; exact c4)
  refine stops_after h4 ?_
  rcases h with ⟨h, rfl⟩ | ⟨c5, h⟩
  · refine stops_bind (ratio_stops ?_)
    unfold Absent
    rw [g2 _ (by decide) (by decide)]
    exact h
  obtain ⟨ra, h5⟩ := parseRatio_complete (p := p2) (by
    unfold Absent; rw [g2 _ (by decide) (by decide)]; exact c5)
  refine stops_after h5 ?_
  rcases h with ⟨h, rfl⟩ | ⟨c6, h⟩
  · refine stops_bind (sensitivity_stops ?_)
    unfold Absent
    rw [g2 _ (by decide) (by decide)]
    exact h
  obtain ⟨p6, h6, f6⟩ := parseSensitivity_complete (p := p2) (by
    unfold Absent; rw [g2 _ (by decide) (by decide)]; exact c6)
  refine stops_after h6 ?_
  have g6 : ∀ k, k ≠ "granularity" → k ≠ "customInterval" → k ≠ "sensitivity" → p6 k = p k :=
    fun k a b c => by rw [f6 k c, g2 k a b]
  rcases h with ⟨h, rfl⟩ | ⟨c7, h⟩
  · refine stops_bind (threshold_stops ?_)
    unfold Absent
    rw [g6 _ (by decide) (by decide) (by decide)]
    exact h
  obtain ⟨th, h7⟩ := parseThreshold_complete (p := p6) (by
    unfold Absent; rw [g6 _ (by decide) (by decide) (by decide)]; exact c7)
  refine stops_after h7 ?_
  obtain ⟨p8, b8, h8, f8⟩ := parseDefaultFalse_complete p6 "needDetectorId"
  refine stops_after h8 ?_
  have g8 : ∀ k, k ≠ "granularity" → k ≠ "customInterval" → k ≠ "sensitivity" → k ≠ "needDetectorId" → p8 k = p k :=
    fun k a b c e => by rw [f8 k e, g6 k a b c]
  have efc : fillChecks p8 = fillChecks p := hfc (g8 _ (by decide) (by decide) (by decide) (by decide))
    (g8 _ (by decide) (by decide) (by decide) (by decide)) (g8 _ (by decide) (by decide) (by decide) (by decide))
    (g8 _ (by decide) (by decide) (by decide) (by decide))
  rcases firstFailure_append.1 h with h | ⟨c8, h⟩
  · exact stops_bind (fill_stops (by rw [efc]; exact h))
  obtain ⟨fi, h9⟩ := parseFill_returns (p := p8) (by rw [efc]; exact c8)
  refine stops_after h9 ?_
  obtain ⟨p10, b10, h10, f10⟩ := parseDefaultFalse_complete p8 "needFillUpConfirm"
  refine stops_after h10 ?_
  obtain ⟨p11, b11, h11, f11⟩ := parseDefaultFalse_complete p10 "needSpectrumPeriod"
  refine stops_after h11 ?_
  have e : p11 "boundaryVersion" = p "boundaryVersion" := by
    rw [f11 _ (by decide), f10 _ (by decide), g8 _ (by decide) (by decide) (by decide) (by decide)]
  refine stops_bind ?_
  rw [show (checks p).drop 11 = [(checks p)[11]!] from rfl] at h
  simp only [FirstFailure, and_false, or_false] at h
  obtain ⟨hx, rfl⟩ := h
  refine boundary_stops ?_ ?_
  · unfold Lookable
    rw [e]
    exact hb
  · unfold AbsentOrNone
    rw [e]
    exact hx

/-- **C08**, what happens instead: a request rejected for its parameters raises TypeError; the documented code of the
first offending parameter is stored in the detector. -/
theorem C08_parameter_rejection {E : Env} {W : Wild} {d : Detector} {hasTs hasValue : Bool}
    {rows : List (PyVal × PyVal)} {params : Params} (hne : rows ≠ []) (hg : Lookable params "granularity")
    (hb : Lookable params "boundaryVersion") {c : String} (h : FirstFailure (checks params) c) :
    (predict E W d (.frame hasTs hasValue rows) params).outcome = .error .typeError ∧
      (predict E W d (.frame hasTs hasValue rows) params).detector.errorCode = some (some c) := by
  obtain ⟨p', h⟩ := parse_stops (E := E) (hasTs := hasTs) (hasValue := hasValue) (rows := rows)
    (by simpa using hne) hg hb h
  unfold predict
  rw [h]
  exact ⟨rfl, rfl⟩

/-- ... and every inadmissible request has such a first failure -/
theorem inadmissible_failure {params : Params} (h : ¬ Admissible params) : ∃ c, FirstFailure (checks params) c := by
  rw [firstFailure_iff]
  rwa [admissible_iff] at h

/-! ### errors raised while parsing -/

/-- `x` never raises the request error -/
def NoReq {α} (x : PM α) : Prop := ∀ p p' e c, x p = (p', .err e c) → ∀ s, e ≠ .requestError s

theorem noReq_pure {α} (a : α) : NoReq (Pure.pure a : PM α) := by
  intro p p' e c h; cases h
theorem noReq_get {β} {f : Params → PM β} (h : ∀ p, NoReq (f p)) : NoReq (PM.get >>= f) :=
  fun p p' e c hh => h p p p' e c hh
theorem noReq_set (k : String) (v : PyVal) : NoReq (PM.set k v) := by
  intro p p' e c h; cases h
theorem noReq_early {α} (c : String) : NoReq (PM.early c : PM α) := by
  intro p p' e c h; cases h
theorem noReq_earlyNoCode {α} : NoReq (PM.earlyNoCode : PM α) := by
  intro p p' e c h; cases h
theorem noReq_throw {α} {e : PyErr} (he : ∀ s, e ≠ .requestError s) (c : CodeUpdate) :
    NoReq (PM.throw e c : PM α) := by
  intro p p' e' c' h
  cases h
  exact he
theorem noReq_bind {α β} {x : PM α} {f : α → PM β} (hx : NoReq x) (hf : ∀ a, NoReq (f a)) : NoReq (x >>= f) := by
  intro p p' e c h
  have h : PM.bind x f p = _ := h
  unfold PM.bind at h
  rcases hxp : x p with ⟨p1, r⟩
  rw [hxp] at h
  cases r with
  | ok a => exact hf a p1 p' e c h
  | early c => cases h
  | err e' c' =>
    cases h
    exact hx _ _ _ _ hxp

macro "no_req" : tactic => `(tactic|
  repeat' first
    | with_reducible exact noReq_pure _
    | with_reducible exact noReq_early _
    | with_reducible exact noReq_earlyNoCode
    | with_reducible exact noReq_set _ _
    | with_reducible exact noReq_throw (by simp) _
    | with_reducible refine noReq_get fun _ => ?_
    | with_reducible refine noReq_bind ?_ fun _ => ?_
    | split)

theorem getIndices_noReq {g : Granularity} {ci : Option Int} {ts : List Stamp} {e : PyErr}
    (h : getIndices g ci ts = .error e) : ∀ s, e ≠ .requestError s := by
  unfold getIndices at h
  simp only at h
  repeat' split at h
  all_goals first
    | (cases h; done)
    | (cases h; simp)

theorem noReq_validator (E : Env) (hasTs hasValue : Bool) (rows : List (PyVal × PyVal)) (g : Granularity)
    (interval : Option Int) : NoReq (seriesValidator E hasTs hasValue rows g interval) := by
  unfold seriesValidator
  split
  · no_req
  split
  · split
    · no_req
    split
    · no_req
    split
    · rename_i h
      exact noReq_throw (getIndices_noReq h) _
    · no_req
    · no_req
  · no_req

theorem noReq_parseArg (E : Env) (data : DataArg) : NoReq (parseArg E data) := by
  unfold parseArg
  split
  · no_req
  · no_req
  · no_req
  split
  · no_req
  refine noReq_bind (by unfold parseGranularity; no_req) fun _ => noReq_bind (by unfold parseInterval; no_req) fun _ =>
    noReq_bind (by unfold parsePeriod; no_req) fun _ => noReq_bind (by unfold parseAlpha; no_req) fun _ =>
    noReq_bind (by unfold parseRatio; no_req) fun _ => noReq_bind (by unfold parseSensitivity; no_req) fun _ =>
    noReq_bind (by unfold parseThreshold; no_req) fun _ => noReq_bind (by unfold parseDefaultFalse; no_req) fun _ =>
    noReq_bind (by unfold parseFill; no_req) fun _ => noReq_bind (by unfold parseDefaultFalse; no_req) fun _ =>
    noReq_bind (by unfold parseDefaultFalse; no_req) fun _ =>
    noReq_bind (by unfold parseBoundary boundaryName; no_req) fun _ =>
    noReq_bind (by unfold parseDetector; no_req) fun _ =>
    noReq_bind (by
      unfold parseIndices
      refine noReq_bind (noReq_validator _ _ _ _ _ _) fun _ => ?_
      no_req) fun _ => noReq_pure _

/-- **C08**, refuted: whenever `AnomalyDetectionRequestError` is raised, the request had passed all checks of
parameters and series, so no request rejected by them raises it. -/
theorem C08_never_request_error {E : Env} {W : Wild} {d : Detector} {data : DataArg} {params : Params} {c : String}
    (hno : params "indices" = none) (h : (predict E W d data params).outcome = .error (.requestError c)) :
    Admissible params ∧ ∃ hasTs hasValue rows g o vs idx, data = .frame hasTs hasValue rows ∧
      GranularityOf params g ∧ IntervalOf params o ∧ Validated E hasTs hasValue rows g o vs idx := by
  unfold predict at h
  rcases hp : parseArg E data params with ⟨p', r⟩
  rw [hp] at h
  cases r with
  | err e cu =>
    simp only [Except.error.injEq] at h
    exact absurd h (noReq_parseArg E data _ _ _ _ hp c)
  | early cu => simp at h
  | ok r =>
    obtain ⟨hd, hP⟩ := parseArg_ok hp
    refine ⟨parsed_admissible hP, r.hasTs, r.hasValue, r.rows, r.mp.granularity, r.mp.interval, ?_⟩
    have hgo : GranularityOf params r.mp.granularity := hP.gran
    have hio : IntervalOf params r.mp.interval := by
      rcases hP.interval with a | ⟨v, i, a, b, -, e⟩
      · exact .inl a
      · exact .inr ⟨v, i, a, b, e⟩
    rcases hP.indices with hi | ⟨hi, vs, hvs⟩ | ⟨vs, idx, hval, hi⟩
    · rw [hno] at hi; cases hi
    · exfalso
      simp only at h
      rcases hc : currentMode d.mode p' with _ | m
      · unfold afterParse at h
        have hc : currentMode (d.update (some r.code)).mode p' = none := hc
        rw [hc] at h
        simp at h
      · have hrun : runModel E m r.hasTs r.hasValue r.rows r.mp p' = .error (.err .valueError) := by
          obtain ⟨l, hl, -⟩ := mapM_finite fun v hv => (hvs.finite v hv).imp fun _ h => h.1
          unfold runModel
          rw [hvs.values]
          simp [lift, Bind.bind, Except.bind, Model.init, hl, hi]
        unfold afterParse at h
        have hc : currentMode (d.update (some r.code)).mode p' = some m := hc
        rw [hc] at h
        simp [hrun] at h
    · exact ⟨vs, idx, hd, hgo, hio, hval⟩

/-! ### rejected series -/

/-- The documented error code of a series that cannot be analysed, without a look at its timestamps. -/
inductive SeriesFailure (E : Env) (hasValue : Bool) (rows : List (PyVal × PyVal)) : String → Prop
  | size (h : rows.length < 12 ∨ 8640 < rows.length) : SeriesFailure E hasValue rows "InvalidSeries"
  | unreadable (h1 : 12 ≤ rows.length) (h2 : rows.length ≤ 8640)
      (h : hasValue = false ∨ ∃ r ∈ rows, ∀ f, cellFloat E r.2 ≠ .ok f) : SeriesFailure E hasValue rows "BadArgument"

theorem seriesFailure_validate {E : Env} {hasTs hasValue : Bool} {rows : List (PyVal × PyVal)} {c : String}
    (h : SeriesFailure E hasValue rows c) (needTs : Bool) :
    validateValues E hasTs hasValue rows needTs = .error c := by
  unfold validateValues
  cases h with
  | size h =>
    rcases h with h | h
    · rw [if_pos h]
    · rw [if_neg (by omega), if_pos h]
  | unreadable h1 h2 h =>
    rw [if_neg (by omega), if_neg (by omega)]
    have : ∃ e, cellValues E hasValue rows = .error e := by
      rcases hc : cellValues E hasValue rows with e | vs
      · exact ⟨e, rfl⟩
      · exfalso
        unfold cellValues at hc
        rcases h with rfl | ⟨r, hr, h⟩
        · simp only [Bool.false_eq_true, if_false] at hc
          rw [if_neg (by omega)] at hc
          cases hc
        · split at hc
          · have hf := mapM_except_ok hc
            obtain ⟨i, hi, rfl⟩ := List.mem_iff_getElem.1 hr
            have hl := hf.length_eq
            exact h _ ((List.forall₂_iff_get.1 hf).2 i hi (by omega))
          · rw [if_neg (by omega)] at hc
            cases hc
    obtain ⟨e, he⟩ := this
    rw [he]

/-- **C08**, unhashable granularity: a list or dict ends in TypeError as well, but no code is stored; the detector and the dict stay as they were. -/
theorem C08_unhashable {E : Env} {W : Wild} {d : Detector} {hasTs hasValue : Bool} {rows : List (PyVal × PyVal)} {params : Params}
    (hne : rows ≠ []) {v : PyVal} (hv : params "granularity" = some v) (h : (∃ l, v = .list l) ∨ ∃ m, v = .dict m) :
    predict E W d (.frame hasTs hasValue rows) params = ⟨.error .typeError, d, params⟩ := by
  have key : parseGranularity params = (params, .err .typeError none) := by
    unfold parseGranularity
    show (match params "granularity" with
      | none => (do PM.set "granularity" (.gran .none); Pure.pure .none)
      | some (.str s) =>
        match Granularity.ofName s with
        | some g => (do PM.set "granularity" (.gran g); Pure.pure g)
        | none => PM.early "InvalidGranularity"
      | some v => if v.hashable then PM.early "InvalidGranularity" else PM.throw .typeError : PM Granularity) params = _
    rw [hv]
    rcases h with ⟨l, rfl⟩ | ⟨m, rfl⟩ <;> rfl
  have hp : parseArg E (.frame hasTs hasValue rows) params = (params, .err .typeError none) := by
    unfold parseArg
    dsimp only
    rw [if_neg (by simpa using hne)]
    show PM.bind parseGranularity _ params = _
    unfold PM.bind
    rw [key]
  unfold predict
  rw [hp]
  rfl

/-- a list as granularity -/
example (E : Env) (W : Wild) (d : Detector) : (predict E W d (.frame true true [(.none, .int 1)]) (fun k => if k = "granularity" then some (.list []) else none)).detector = d := by
  rw [C08_unhashable (by simp) rfl (.inl ⟨_, rfl⟩)]

/-- **C08**, what happens instead for a series of the wrong size or with an unreadable value: KeyError, with the
documented code stored in the detector. -/
theorem C08_series_rejection {E : Env} {W : Wild} {d : Detector} {hasTs hasValue : Bool}
    {rows : List (PyVal × PyVal)} {params : Params} (hne : rows ≠ []) (ha : Admissible params)
    (hd : NoDetector params) (hno : params "indices" = none) {c : String} (h : SeriesFailure E hasValue rows c) :
    (predict E W d (.frame hasTs hasValue rows) params).outcome = .error .keyError ∧
      (predict E W d (.frame hasTs hasValue rows) params).detector.errorCode = some (some c) := by
  obtain ⟨g, hg⟩ : ∃ g, GranularityOf params g := by
    rcases ha.granularity with a | ⟨s, hs, a⟩
    · exact ⟨_, .inl ⟨a, rfl⟩⟩
    · obtain ⟨g, hg⟩ := ofName_complete hs
      exact ⟨g, .inr ⟨s, a, hg⟩⟩
  obtain ⟨o, ho⟩ : ∃ o, IntervalOf params o := by
    rcases ha.customInterval with a | ⟨v, i, a, b, -⟩
    · exact ⟨_, .inl ⟨a, rfl⟩⟩
    · exact ⟨_, .inr ⟨v, i, a, isInt_asInt b, rfl⟩⟩
  obtain ⟨p1, K, h1, -, -, h2⟩ := parseArg_upto E hasTs hasValue ha hd hg ho (rows := rows) (by simpa using hne)
  have h3 : parseIndices E hasTs hasValue rows g o p1 = (p1, .err .keyError (some (some c))) := by
    unfold parseIndices
    have : seriesValidator E hasTs hasValue rows g o = Pure.pure (some c) := by
      unfold seriesValidator
      rw [seriesFailure_validate h]
    rw [this]
    show (match p1 "indices" with
      | none => PM.throw .keyError (some (some c))
      | some v => Pure.pure (v, some c) : PM (PyVal × Option String)) p1 = _
    rw [h2, hno]
    rfl
  have h4 : parseArg E (.frame hasTs hasValue rows) params = (p1, .err .keyError (some (some c))) := by
    rw [h1]
    show PM.bind _ _ p1 = _
    unfold PM.bind
    rw [h3]
  unfold predict
  rw [h4]
  exact ⟨rfl, rfl⟩

/-! ### concrete cases -/

/-- a bad ratio in front of a bad sensitivity -/
example : FirstFailure (checks (Params.ofList [("maxAnomalyRatio", .float (.fin (1 / 2))), ("sensitivity", .int 101),
    ("granularity", .str "daily")])) "InvalidModelArgument" := by
  simp [FirstFailure, checks, Params.ofList, Params.set, Absent, granularityNames]
  norm_num

example : errOf (predict demoEnv demoWild entireDetector demoData (Params.ofList [("sensitivity", .int 101)])) =
    some .typeError := by decide +kernel

/-- eleven rows -/
example : SeriesFailure demoEnv true (demoRows [1, 2, 3, 4, 5, 6, 7, 8, 9, 10, 11]) "InvalidSeries" ∧
    Admissible (Params.ofList []) ∧ NoDetector (Params.ofList []) := by
  refine ⟨.size (.inl (by decide)), ?_, by simp [NoDetector, Params.ofList]⟩
  rw [admissible_iff]
  simp [checks, Params.ofList, Absent, AbsentOrNone]

/-- a sparse request that passes validation and raises the request error -/
example : errOf (predict demoEnv demoWild entireDetector (.frame true true (demoRows demoSeries 3))
    (Params.ofList [("granularity", .str "secondly"), ("period", .int 2)])) =
    some (.requestError "InvalidSeries") := by decide +kernel

end Verif
