import Verif.Uni.Inv
import Verif.Spec.Request

/-!
# Completeness of the request parser

A request in the documented domain, with a series that passes validation, is parsed.
-/

namespace Verif

open PM Spec

theorem isInt_asInt {v : PyVal} {i : Int} (h : IsInt v i) : v.asInt? = some i := by
  cases h <;> rfl

theorem isNumber_asNumber {v : PyVal} {f : PyFloat} (h : IsNumber v f) : v.asNumber? = some f := by
  cases h with
  | int h => cases h <;> simp [PyVal.asNumber?]
  | float f => rfl

theorem get_bind {β} (f : Params → PM β) (p p' : Params) (b : β) :
    Returns (PM.get >>= f) p p' b ↔ Returns (f p) p p' b := by
  rw [bind_ok]
  constructor
  · rintro ⟨p1, q, h1, h2⟩
    obtain ⟨rfl, rfl⟩ := get_ok.1 h1
    exact h2
  · exact fun h => ⟨p, p, get_ok.2 ⟨rfl, rfl⟩, h⟩

theorem ofName_complete {s : String} (h : s ∈ granularityNames) : ∃ g, Granularity.ofName s = some g := by
  have key : ∀ s ∈ granularityNames, (Granularity.ofName s).isSome = true := by decide +kernel
  exact Option.isSome_iff_exists.1 (key s h)

theorem ofValue_complete {s : String} (h : s ∈ fillNames) : ∃ m, FillUpMode.ofValue s = some m := by
  have key : ∀ s ∈ fillNames, (FillUpMode.ofValue s).isSome = true := by decide +kernel
  exact Option.isSome_iff_exists.1 (key s h)

theorem boundaryName_complete {s : String} (h : s ∈ ["V1", "V2", "V3"]) : ∃ b, BoundaryVersion.ofName s = some b := by
  have key : ∀ s ∈ ["V1", "V2", "V3"], (BoundaryVersion.ofName s).isSome = true := by decide +kernel
  exact Option.isSome_iff_exists.1 (key s h)

theorem parseGranularity_complete {p : Params}
    (h : Absent p "granularity" ∨ ∃ s ∈ granularityNames, p "granularity" = some (.str s)) :
    ∃ g, parseGranularity.Returns p (p.set "granularity" (.gran g)) g := by
  rcases h with h | ⟨s, hs, h⟩
  · have h : p "granularity" = none := h
    refine ⟨.none, ?_⟩
    unfold parseGranularity
    rw [get_bind, h]
    exact bind_ok.2 ⟨_, (), set_ok.2 rfl, pure_ok.2 ⟨rfl, rfl⟩⟩
  · obtain ⟨g, hg⟩ := ofName_complete hs
    refine ⟨g, ?_⟩
    unfold parseGranularity
    rw [get_bind, h]
    simp only [hg]
    exact bind_ok.2 ⟨_, (), set_ok.2 rfl, pure_ok.2 ⟨rfl, rfl⟩⟩

theorem parseInterval_complete {p : Params}
    (h : Absent p "customInterval" ∨ ∃ v i, p "customInterval" = some v ∧ IsInt v i ∧ 1 ≤ i) :
    ∃ p' o, parseInterval.Returns p p' o ∧ ∀ k, k ≠ "customInterval" → p' k = p k := by
  rcases h with h | ⟨v, i, h, hi, h1⟩
  · have h : p "customInterval" = none := h
    refine ⟨p.set "customInterval" .none, none, ?_, fun k hk => Params.set_ne _ _ hk⟩
    unfold parseInterval
    rw [get_bind, h]
    exact bind_ok.2 ⟨_, (), set_ok.2 rfl, pure_ok.2 ⟨rfl, rfl⟩⟩
  · refine ⟨p, some i, ?_, fun _ _ => rfl⟩
    unfold parseInterval
    rw [get_bind, h]
    simp only [isInt_asInt hi]
    rw [if_neg (by omega)]
    exact pure_ok.2 ⟨rfl, rfl⟩

theorem parsePeriod_complete {p : Params}
    (h : Absent p "period" ∨ ∃ v i, p "period" = some v ∧ IsInt v i ∧ 0 ≤ i) : parsePeriod.Returns p p () := by
  unfold parsePeriod
  rw [get_bind]
  rcases h with h | ⟨v, i, h, hi, h1⟩
  · have h : p "period" = none := h
    rw [h]
    exact pure_ok.2 ⟨rfl, rfl⟩
  · rw [h]
    simp only [isInt_asInt hi]
    rw [if_neg (by omega)]
    exact pure_ok.2 ⟨rfl, rfl⟩

theorem parseAlpha_complete {p : Params}
    (h : Absent p "alpha" ∨ ∃ v f, p "alpha" = some v ∧ IsNumber v f ∧ f ≠ .ninf ∧ ∀ q, f = .fin q → 0 < q) :
    ∃ o, parseAlpha.Returns p p o := by
  unfold parseAlpha
  simp only [get_bind]
  rcases h with h | ⟨v, f, h, hf, h1, h2⟩
  · have h : p "alpha" = none := h
    rw [h]
    exact ⟨_, pure_ok.2 ⟨rfl, rfl⟩⟩
  · rw [h]
    simp only [isNumber_asNumber hf]
    have : f.le (.fin 0) = false := by
      cases f with
      | fin q => simpa [PyFloat.le] using h2 q rfl
      | pinf => rfl
      | ninf => exact absurd rfl h1
      | nan => rfl
    rw [this]
    exact ⟨_, pure_ok.2 ⟨rfl, rfl⟩⟩

theorem parseRatio_complete {p : Params}
    (h : Absent p "maxAnomalyRatio" ∨ ∃ f, p "maxAnomalyRatio" = some (.float f) ∧
      (f = .nan ∨ ∃ q : ℚ, f = .fin q ∧ 0 < q ∧ q ≤ 49 / 100)) : ∃ o, parseRatio.Returns p p o := by
  unfold parseRatio
  simp only [get_bind]
  rcases h with h | ⟨f, h, hf⟩
  · have h : p "maxAnomalyRatio" = none := h
    rw [h]
    exact ⟨_, pure_ok.2 ⟨rfl, rfl⟩⟩
  · rw [h]
    simp only [PyVal.asFloat?]
    have : (f.le (.fin 0) || (PyFloat.fin (49 / 100)).lt f) = false := by
      rcases hf with rfl | ⟨q, rfl, h1, h2⟩
      · rfl
      · simp only [PyFloat.le, PyFloat.lt, Bool.or_eq_false_iff, decide_eq_false_iff_not, not_le, not_lt]
        exact ⟨h1, h2⟩
    rw [this]
    exact ⟨_, pure_ok.2 ⟨rfl, rfl⟩⟩

theorem parseSensitivity_complete {p : Params}
    (h : Absent p "sensitivity" ∨ ∃ v i, p "sensitivity" = some v ∧ IsInt v i ∧ 0 ≤ i ∧ i ≤ 100) :
    ∃ p', parseSensitivity.Returns p p' () ∧ ∀ k, k ≠ "sensitivity" → p' k = p k := by
  unfold parseSensitivity
  simp only [get_bind]
  rcases h with h | ⟨v, i, h, hi, h1⟩
  · have h : p "sensitivity" = none := h
    rw [h]
    exact ⟨_, set_ok.2 rfl, fun k hk => Params.set_ne _ _ hk⟩
  · rw [h]
    simp only [isInt_asInt hi]
    rw [if_neg (by omega)]
    exact ⟨p, pure_ok.2 ⟨rfl, rfl⟩, fun _ _ => rfl⟩

theorem parseThreshold_complete {p : Params}
    (h : Absent p "threshold" ∨ ∃ f, p "threshold" = some (.float f)) : ∃ o, parseThreshold.Returns p p o := by
  unfold parseThreshold
  simp only [get_bind]
  rcases h with h | ⟨f, h⟩
  · have h : p "threshold" = none := h
    rw [h]
    exact ⟨_, pure_ok.2 ⟨rfl, rfl⟩⟩
  · rw [h]
    exact ⟨_, pure_ok.2 ⟨rfl, rfl⟩⟩

theorem parseDefaultFalse_complete (p : Params) (k : String) :
    ∃ p' b, (parseDefaultFalse k).Returns p p' b ∧ ∀ j, j ≠ k → p' j = p j := by
  unfold parseDefaultFalse
  simp only [get_bind]
  exact ⟨_, _, bind_ok.2 ⟨_, (), set_ok.2 rfl, pure_ok.2 ⟨rfl, rfl⟩⟩, fun j hj => Params.set_ne _ _ hj⟩

theorem presentKey_none {p : Params} {k : String} (h : AbsentOrNone p k) : presentKey p k = none := by
  unfold presentKey
  rcases h with h | h <;> simp [h]

theorem presentKey_str {p : Params} {k s : String} (h : p k = some (.str s)) :
    presentKey p k = some (.str s) := by
  simp [presentKey, h]

theorem ofValue_eq_fixed {s : String} (h : FillUpMode.ofValue s = some .fixed) : s = "fixed" := by
  unfold FillUpMode.ofValue at h
  repeat' split at h
  all_goals first
    | cases h; done
    | assumption

theorem parseFill_complete {p : Params} (ha : Admissible p) : ∃ o, parseFill.Returns p p o := by
  unfold parseFill
  simp only [get_bind]
  rcases ha.imputeMode with h | ⟨s, hs, h⟩
  · rw [presentKey_none h]
    rcases ha.fillUpMode h with h2 | ⟨s, hs, h2⟩
    · rw [presentKey_none h2]
      exact ⟨_, pure_ok.2 ⟨rfl, rfl⟩⟩
    · rw [presentKey_str h2]
      obtain ⟨m, hm⟩ := ofValue_complete hs
      simp only [hm]
      by_cases hf : m = .fixed
      · subst hf
        have := ofValue_eq_fixed hm
        subst this
        obtain ⟨v, f, hv, hvf⟩ := ha.fixedValue h h2
        rw [hv]
        simp only [Option.bind_some, isNumber_asNumber hvf]
        exact ⟨_, pure_ok.2 ⟨rfl, rfl⟩⟩
      · cases m <;> first
          | exact absurd rfl hf
          | exact ⟨_, pure_ok.2 ⟨rfl, rfl⟩⟩
  · rw [presentKey_str h]
    obtain ⟨m, hm⟩ := ofValue_complete hs
    simp only [hm]
    by_cases hf : m = .fixed
    · subst hf
      have := ofValue_eq_fixed hm
      subst this
      obtain ⟨v, f, hv, hvf⟩ := ha.imputeFixedValue h
      rw [hv]
      simp only [Option.bind_some, isNumber_asNumber hvf]
      exact ⟨_, pure_ok.2 ⟨rfl, rfl⟩⟩
    · cases m <;> first
        | exact absurd rfl hf
        | exact ⟨_, pure_ok.2 ⟨rfl, rfl⟩⟩

theorem parseBoundary_complete {p : Params}
    (h : AbsentOrNone p "boundaryVersion" ∨ ∃ s ∈ ["V1", "V2", "V3"], p "boundaryVersion" = some (.str s)) :
    ∃ p' b, parseBoundary.Returns p p' b ∧ ∀ k, k ≠ "boundaryVersion" → k ≠ "need_trend" → p' k = p k := by
  have key : ∃ b, (boundaryName p).Returns p p b := by
    unfold boundaryName
    rcases h with h | ⟨s, hs, h⟩
    · rw [presentKey_none h]
      exact ⟨_, pure_ok.2 ⟨rfl, rfl⟩⟩
    · rw [presentKey_str h]
      obtain ⟨b, hb⟩ := boundaryName_complete hs
      simp only [hb]
      exact ⟨_, pure_ok.2 ⟨rfl, rfl⟩⟩
  obtain ⟨b, hb⟩ := key
  refine ⟨(p.set "boundaryVersion" (.bver b)).set "need_trend" (.bool (decide (b ≠ .V1))), b, ?_, ?_⟩
  · unfold parseBoundary
    rw [get_bind]
    exact bind_ok.2 ⟨_, _, hb, bind_ok.2 ⟨_, (), set_ok.2 rfl, bind_ok.2 ⟨_, (), set_ok.2 rfl, pure_ok.2 ⟨rfl, rfl⟩⟩⟩⟩
  · intro k h1 h2
    rw [Params.set_ne _ _ h2, Params.set_ne _ _ h1]

/-- the request names no detector: the key is absent or not a dict -/
def NoDetector (p : Params) : Prop := ∀ d, p "detector" ≠ some (.dict d)

theorem parseDetector_complete {p : Params} (h : NoDetector p) : parseDetector.Returns p p none := by
  unfold parseDetector
  rw [get_bind]
  split
  · rename_i d hd
    exact absurd hd (h d)
  · exact pure_ok.2 ⟨rfl, rfl⟩

theorem validateValues_complete {E : Env} {hasTs hasValue : Bool} {rows : List (PyVal × PyVal)} {needTs : Bool}
    {vs : List PyFloat} (h : ValuesOk E hasValue rows vs) {ts : List (Option Stamp)}
    (ht : needTs = true → hasTs = true ∧ E.toDatetime (rows.map (·.1)) = .ok ts) :
    ∃ ts', validateValues E hasTs hasValue rows needTs = .ok (vs, ts') ∧ (needTs = true → ts' = ts) := by
  unfold validateValues
  rw [if_neg (by have := h.lo; omega), if_neg (by have := h.hi; omega), h.values]
  have h1 : (vs.any (fun v => v.lt (.fin (-(10 ^ 100)))) || vs.any (fun v => (PyFloat.fin (10 ^ 100)).lt v)) = false := by
    simp only [Bool.or_eq_false_iff, List.any_eq_false, Bool.not_eq_true]
    exact ⟨h.small, h.big⟩
  have h2 : vs.any PyFloat.isNaN = false := by
    simp only [List.any_eq_false, Bool.not_eq_true]
    exact h.notNaN
  simp only [h1, h2]
  cases needTs with
  | true =>
    obtain ⟨a, b⟩ := ht rfl
    simp [a, b]
  | false => simp

theorem seriesValidator_complete {E : Env} {hasTs hasValue : Bool} {rows : List (PyVal × PyVal)} {g : Granularity}
    {interval : Option Int} {vs : List PyFloat} {idx : List Int}
    (h : Validated E hasTs hasValue rows g interval vs idx) (p : Params) :
    ∃ c, (seriesValidator E hasTs hasValue rows g interval).Returns p (p.set "indices" (PyVal.ofIntList idx)) c := by
  unfold seriesValidator
  by_cases hg : g = .none
  · subst hg
    obtain ⟨ts', h1, -⟩ := validateValues_complete (hasTs := hasTs) (needTs := false) (ts := []) h.toValuesOk (by simp)
    have e : decide (Granularity.none ≠ Granularity.none) = false := by simp
    rw [e, h1]
    simp only [ne_eq, not_true_eq_false, if_false]
    rw [← h.plain rfl]
    exact ⟨none, bind_ok.2 ⟨_, (), set_ok.2 rfl, pure_ok.2 ⟨rfl, rfl⟩⟩⟩
  · obtain ⟨ht, ots, ts, h1, h2, h3, h4⟩ := h.stamps hg
    obtain ⟨ts', h5, h6⟩ := validateValues_complete (hasTs := hasTs) (needTs := true) (ts := ots) h.toValuesOk
      (fun _ => ⟨ht, h1⟩)
    have e : decide (g ≠ Granularity.none) = true := by simpa using hg
    rw [e, h5]
    rw [h6 rfl]
    simp only [ne_eq, hg, not_false_eq_true, if_true, h2, not_true_eq_false, if_false, h3, h4]
    have key : ∃ c, Returns (PM.get >>= fun p => match paramPeriod p with
        | some n => Pure.pure (if idx.getLastD 0 + 1 < n * 2 + 1 then some "InvalidModelArgument" else none)
        | none => Pure.pure none) (p.set "indices" (PyVal.ofIntList idx)) (p.set "indices" (PyVal.ofIntList idx)) c := by
      simp only [get_bind]
      cases paramPeriod (p.set "indices" (PyVal.ofIntList idx)) <;> exact ⟨_, pure_ok.2 ⟨rfl, rfl⟩⟩
    obtain ⟨c, hc⟩ := key
    exact ⟨c, bind_ok.2 ⟨_, (), set_ok.2 rfl, hc⟩⟩

/-- the granularity a request names -/
def GranularityOf (p : Params) (g : Granularity) : Prop :=
  (p "granularity" = none ∧ g = .none) ∨ ∃ s, p "granularity" = some (.str s) ∧ Granularity.ofName s = some g

/-- the interval a request names -/
def IntervalOf (p : Params) (o : Option Int) : Prop :=
  (p "customInterval" = none ∧ o = none) ∨ ∃ v i, p "customInterval" = some v ∧ v.asInt? = some i ∧ o = some i

theorem run_bind {α β} {x : PM α} {f : α → PM β} {p p1 : Params} {a : α} (h : x.Returns p p1 a) :
    (x >>= f) p = f a p1 := by
  show PM.bind x f p = _
  unfold PM.bind
  rw [h]

/-- the result of `parse_arg`, up to the outcome of the series validation -/
structure Upto (g : Granularity) (o : Option Int) (hasTs hasValue : Bool) (rows : List (PyVal × PyVal))
    (K : PyVal × Option String → ParseResult) : Prop where
  indices : ∀ ix, (K ix).mp.indices = ix.1
  code : ∀ ix, (K ix).code = ix.2
  granularity : ∀ ix, (K ix).mp.granularity = g
  interval : ∀ ix, (K ix).mp.interval = o
  detector : ∀ ix, (K ix).mp.detector = none
  rows : ∀ ix, (K ix).rows = rows
  hasTs : ∀ ix, (K ix).hasTs = hasTs
  hasValue : ∀ ix, (K ix).hasValue = hasValue

/-- A documented request without an explicit detector is parsed up to the validation of its series. -/
theorem parseArg_upto (E : Env) (hasTs hasValue : Bool) {rows : List (PyVal × PyVal)} {p : Params}
    (ha : Admissible p) (hd : NoDetector p) {g : Granularity} {o : Option Int}
    (hg : GranularityOf p g) (ho : IntervalOf p o) (hne : rows.length ≠ 0) :
    ∃ p' K, parseArg E (.frame hasTs hasValue rows) p =
        (parseIndices E hasTs hasValue rows g o >>= fun ix => Pure.pure (K ix)) p' ∧
      Upto g o hasTs hasValue rows K ∧ (∀ k, k ∉ writtenKeys → p' k = p k) ∧ p' "indices" = p "indices" := by
  obtain ⟨g', h1⟩ := parseGranularity_complete ha.granularity
  have eg : g' = g := by
    rcases (parseGranularity_ok h1).2 with ⟨a, b⟩ | ⟨s, a, b⟩
    · rcases hg with ⟨-, c⟩ | ⟨s, c, -⟩
      · rw [b, c]
      · rw [a] at c; cases c
    · rcases hg with ⟨c, -⟩ | ⟨s', c, e⟩
      · rw [a] at c; cases c
      · rw [a] at c
        cases c
        rw [b] at e
        exact Option.some.inj e
  subst eg
  have f1 : ∀ k, k ≠ "granularity" → (p.set "granularity" (.gran g')) k = p k := fun k hk => Params.set_ne _ _ hk
  obtain ⟨p2, o', h2, f2⟩ := parseInterval_complete (p := p.set "granularity" (.gran g')) (by
    unfold Absent; rw [f1 _ (by decide)]; exact ha.customInterval)
  have eo : o' = o := by
    have := parseInterval_ok h2
    rw [f1 _ (by decide)] at this
    rcases this with ⟨a, b, -⟩ | ⟨v, i, a, b, -, c, -⟩
    · rcases ho with ⟨-, e⟩ | ⟨v, i, e, -, -⟩
      · rw [b, e]
      · rw [a] at e; cases e
    · rcases ho with ⟨e, -⟩ | ⟨v', i', e, e2, e3⟩
      · rw [a] at e; cases e
      · rw [a] at e
        cases e
        rw [b] at e2
        cases e2
        rw [c, e3]
  subst eo
  have g2 : ∀ k, k ≠ "granularity" → k ≠ "customInterval" → p2 k = p k := fun k a b => by rw [f2 k b, f1 k a]
  have h3 := parsePeriod_complete (p := p2) (by
    unfold Absent; rw [g2 _ (by decide) (by decide)]; exact ha.period)
  obtain ⟨al, h4⟩ := parseAlpha_complete (p := p2) (by
    unfold Absent; rw [g2 _ (by decide) (by decide)]; exact ha.alpha)
  obtain ⟨ra, h5⟩ := parseRatio_complete (p := p2) (by
    unfold Absent; rw [g2 _ (by decide) (by decide)]; exact ha.maxAnomalyRatio)
  obtain ⟨p6, h6, f6⟩ := parseSensitivity_complete (p := p2) (by
    unfold Absent; rw [g2 _ (by decide) (by decide)]; exact ha.sensitivity)
  have g6 : ∀ k, k ≠ "granularity" → k ≠ "customInterval" → k ≠ "sensitivity" → p6 k = p k :=
    fun k a b c => by rw [f6 k c, g2 k a b]
  obtain ⟨th, h7⟩ := parseThreshold_complete (p := p6) (by
    unfold Absent; rw [g6 _ (by decide) (by decide) (by decide)]; exact ha.threshold)
  obtain ⟨p8, b8, h8, f8⟩ := parseDefaultFalse_complete p6 "needDetectorId"
  have g8 : ∀ k, k ≠ "granularity" → k ≠ "customInterval" → k ≠ "sensitivity" → k ≠ "needDetectorId" → p8 k = p k :=
    fun k a b c e => by rw [f8 k e, g6 k a b c]
  obtain ⟨fi, h9⟩ : ∃ o, parseFill.Returns p8 p8 o := by
    have e1 : p8 "imputeMode" = p "imputeMode" := g8 _ (by decide) (by decide) (by decide) (by decide)
    have e2 : p8 "imputeFixedValue" = p "imputeFixedValue" := g8 _ (by decide) (by decide) (by decide) (by decide)
    have e3 : p8 "fillUpMode" = p "fillUpMode" := g8 _ (by decide) (by decide) (by decide) (by decide)
    have e4 : p8 "fixedValue" = p "fixedValue" := g8 _ (by decide) (by decide) (by decide) (by decide)
    obtain ⟨o, ho⟩ := parseFill_complete ha
    refine ⟨o, ?_⟩
    unfold parseFill at ho ⊢
    rw [get_bind] at ho ⊢
    rw [presentKey_congr e1, presentKey_congr e3, e2, e4]
    revert ho
    -- both runs only return or stop
    have : ∀ (x : PM (Option FillUpMode × Option PyFloat)), (∃ a, x = Pure.pure a) ∨ (∃ c, x = PM.early c) →
        x.Returns p p o → x.Returns p8 p8 o := by
      rintro x (⟨a, rfl⟩ | ⟨c, rfl⟩) h
      · exact pure_ok.2 ⟨rfl, (pure_ok.1 h).2⟩
      · exact (early_ok.1 h).elim
    refine this _ ?_
    repeat' split
    all_goals first
      | exact .inl ⟨_, rfl⟩
      | exact .inr ⟨_, rfl⟩
  obtain ⟨p10, b10, h10, f10⟩ := parseDefaultFalse_complete p8 "needFillUpConfirm"
  obtain ⟨p11, b11, h11, f11⟩ := parseDefaultFalse_complete p10 "needSpectrumPeriod"
  have g11 : ∀ k, k ≠ "granularity" → k ≠ "customInterval" → k ≠ "sensitivity" → k ≠ "needDetectorId" →
      k ≠ "needFillUpConfirm" → k ≠ "needSpectrumPeriod" → p11 k = p k :=
    fun k a b c e f i => by rw [f11 k i, f10 k f, g8 k a b c e]
  obtain ⟨p12, bv, h12, f12⟩ := parseBoundary_complete (p := p11) (by
    unfold AbsentOrNone
    rw [g11 _ (by decide) (by decide) (by decide) (by decide) (by decide) (by decide)]
    exact ha.boundaryVersion)
  have h13 := parseDetector_complete (p := p12) (by
    intro d
    rw [f12 _ (by decide) (by decide), g11 _ (by decide) (by decide) (by decide) (by decide) (by decide) (by decide)]
    exact hd d)
  refine ⟨p12, fun ix =>
    { hasTs := hasTs, hasValue := hasValue, rows := rows, code := ix.2
      mp := { granularity := g', interval := o', alpha := al, ratio := ra, threshold := th, fillMode := fi.1
              fixed := fi.2, needSpectrum := b11, needTrend := decide (bv ≠ .V1), detector := none
              indices := ix.1 } }, ?_, ⟨fun _ => rfl, fun _ => rfl, fun _ => rfl, fun _ => rfl, fun _ => rfl,
    fun _ => rfl, fun _ => rfl, fun _ => rfl⟩, ?_, ?_⟩
  · unfold parseArg
    simp only [hne, if_false]
    rw [run_bind h1, run_bind h2, run_bind h3, run_bind h4, run_bind h5, run_bind h6, run_bind h7, run_bind h8,
      run_bind h9, run_bind h10, run_bind h11, run_bind h12, run_bind h13]
  · intro k hk
    simp only [writtenKeys, List.mem_cons, List.not_mem_nil, or_false, not_or] at hk
    obtain ⟨k1, k2, k3, k4, k5, k6, k7, k8, k9⟩ := hk
    rw [f12 k k7 k8, g11 k k1 k2 k3 k4 k5 k6]
  · rw [f12 _ (by decide) (by decide), g11 _ (by decide) (by decide) (by decide) (by decide) (by decide) (by decide)]

/-- A documented request without an explicit detector and with a valid series is parsed. -/
theorem parseArg_complete {E : Env} {hasTs hasValue : Bool} {rows : List (PyVal × PyVal)} {p : Params}
    (ha : Admissible p) (hd : NoDetector p) {g : Granularity} {o : Option Int} {vs : List PyFloat} {idx : List Int}
    (hg : GranularityOf p g) (ho : IntervalOf p o) (hv : Validated E hasTs hasValue rows g o vs idx) :
    ∃ p' r, (parseArg E (.frame hasTs hasValue rows)).Returns p p' r ∧ r.mp.indices = PyVal.ofIntList idx ∧
      r.mp.granularity = g ∧ r.mp.interval = o ∧ r.mp.detector = none ∧ r.rows = rows ∧ r.hasTs = hasTs ∧
      r.hasValue = hasValue ∧ p' "indices" = some (PyVal.ofIntList idx) := by
  obtain ⟨p1, K, h1, hK, -, -⟩ := parseArg_upto E hasTs hasValue ha hd hg ho (rows := rows)
    (by have := hv.lo; omega)
  obtain ⟨c, h14⟩ := seriesValidator_complete hv p1
  have h15 : (parseIndices E hasTs hasValue rows g o).Returns p1 (p1.set "indices" (PyVal.ofIntList idx))
      (PyVal.ofIntList idx, c) := by
    unfold parseIndices
    refine bind_ok.2 ⟨_, _, h14, ?_⟩
    rw [get_bind]
    simp only [Params.set_self]
    exact pure_ok.2 ⟨rfl, rfl⟩
  refine ⟨p1.set "indices" (PyVal.ofIntList idx), K (PyVal.ofIntList idx, c), ?_, hK.indices _, hK.granularity _,
    hK.interval _, hK.detector _, hK.rows _, hK.hasTs _, hK.hasValue _, by simp⟩
  show parseArg E _ p = _
  rw [h1]
  exact bind_ok.2 ⟨_, _, h15, pure_ok.2 ⟨rfl, rfl⟩⟩

end Verif
