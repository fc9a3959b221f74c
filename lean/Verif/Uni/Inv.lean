import Verif.Uni.Predict

/-!
# Inversion of the request parser

What a successful `parse_arg` says about the request it was given.
-/

namespace Verif

open PM

theorem parseGranularity_ok {p p' : Params} {g : Granularity} (h : (parseGranularity).Returns p p' g) :
    p' = p.set "granularity" (.gran g) ∧
    ((p "granularity" = none ∧ g = .none) ∨
      ∃ s, p "granularity" = some (.str s) ∧ Granularity.ofName s = some g) := by
  unfold parseGranularity at h
  obtain ⟨p1, q, h1, h⟩ := bind_ok.1 h
  obtain ⟨rfl, rfl⟩ := get_ok.1 h1
  split at h
  · rename_i hk
    obtain ⟨p2, u, h2, h⟩ := bind_ok.1 h
    obtain ⟨rfl, rfl⟩ := pure_ok.1 h
    exact ⟨(set_ok.1 h2).symm, .inl ⟨hk, rfl⟩⟩
  · rename_i s hk
    split at h
    · rename_i g' hg
      obtain ⟨p2, u, h2, h⟩ := bind_ok.1 h
      obtain ⟨rfl, rfl⟩ := pure_ok.1 h
      exact ⟨(set_ok.1 h2).symm, .inr ⟨s, hk, hg⟩⟩
    · exact (early_ok.1 h).elim
  · split at h
    · exact (early_ok.1 h).elim
    · exact (throw_ok.1 h).elim

theorem parseInterval_ok {p p' : Params} {o : Option Int} (h : (parseInterval).Returns p p' o) :
    (p "customInterval" = none ∧ o = none ∧ p' = p.set "customInterval" .none) ∨
      ∃ v i, p "customInterval" = some v ∧ v.asInt? = some i ∧ 0 < i ∧ o = some i ∧ p' = p := by
  unfold parseInterval at h
  obtain ⟨p1, q, h1, h⟩ := bind_ok.1 h
  obtain ⟨rfl, rfl⟩ := get_ok.1 h1
  split at h
  · rename_i hk
    obtain ⟨p2, u, h2, h⟩ := bind_ok.1 h
    obtain ⟨rfl, rfl⟩ := pure_ok.1 h
    exact .inl ⟨hk, rfl, (set_ok.1 h2).symm⟩
  · rename_i v hk
    split at h
    · rename_i i hi
      split at h
      · exact (early_ok.1 h).elim
      · obtain ⟨rfl, rfl⟩ := pure_ok.1 h
        exact .inr ⟨v, i, hk, hi, by omega, rfl, rfl⟩
    · exact (early_ok.1 h).elim

theorem parsePeriod_ok {p p' : Params} {u : Unit} (h : (parsePeriod).Returns p p' u) :
    p' = p ∧ (p "period" = none ∨ ∃ v i, p "period" = some v ∧ v.asInt? = some i ∧ 0 ≤ i) := by
  unfold parsePeriod at h
  obtain ⟨p1, q, h1, h⟩ := bind_ok.1 h
  obtain ⟨rfl, rfl⟩ := get_ok.1 h1
  split at h
  · rename_i hk
    obtain ⟨rfl, _⟩ := pure_ok.1 h
    exact ⟨rfl, .inl hk⟩
  · rename_i v hk
    split at h
    · rename_i i hi
      split at h
      · exact (early_ok.1 h).elim
      · obtain ⟨rfl, _⟩ := pure_ok.1 h
        exact ⟨rfl, .inr ⟨v, i, hk, hi, by omega⟩⟩
    · exact (early_ok.1 h).elim

theorem parseAlpha_ok {p p' : Params} {o : Option PyFloat} (h : (parseAlpha).Returns p p' o) :
    p' = p ∧ ((p "alpha" = none ∧ o = none) ∨
      ∃ v f, p "alpha" = some v ∧ v.asNumber? = some f ∧ f.le (.fin 0) = false ∧ o = some f) := by
  unfold parseAlpha at h
  obtain ⟨p1, q, h1, h⟩ := bind_ok.1 h
  obtain ⟨rfl, rfl⟩ := get_ok.1 h1
  split at h
  · rename_i hk
    obtain ⟨rfl, rfl⟩ := pure_ok.1 h
    exact ⟨rfl, .inl ⟨hk, rfl⟩⟩
  · rename_i v hk
    split at h
    · rename_i f hf
      split at h
      · exact (early_ok.1 h).elim
      · rename_i hle
        obtain ⟨rfl, rfl⟩ := pure_ok.1 h
        exact ⟨rfl, .inr ⟨v, f, hk, hf, by simpa using hle, rfl⟩⟩
    · exact (early_ok.1 h).elim

theorem parseRatio_ok {p p' : Params} {o : Option PyFloat} (h : (parseRatio).Returns p p' o) :
    p' = p ∧ ((p "maxAnomalyRatio" = none ∧ o = none) ∨
      ∃ f, p "maxAnomalyRatio" = some (.float f) ∧ f.le (.fin 0) = false ∧
        (PyFloat.fin (49 / 100)).lt f = false ∧ o = some f) := by
  unfold parseRatio at h
  obtain ⟨p1, q, h1, h⟩ := bind_ok.1 h
  obtain ⟨rfl, rfl⟩ := get_ok.1 h1
  split at h
  · rename_i hk
    obtain ⟨rfl, rfl⟩ := pure_ok.1 h
    exact ⟨rfl, .inl ⟨hk, rfl⟩⟩
  · rename_i v hk
    split at h
    · rename_i f hf
      split at h
      · exact (early_ok.1 h).elim
      · rename_i hle
        obtain ⟨rfl, rfl⟩ := pure_ok.1 h
        simp only [Bool.or_eq_true, not_or, Bool.not_eq_true] at hle
        cases v <;> simp [PyVal.asFloat?] at hf
        subst hf
        exact ⟨rfl, .inr ⟨_, hk, hle.1, hle.2, rfl⟩⟩
    · exact (early_ok.1 h).elim

theorem parseSensitivity_ok {p p' : Params} {u : Unit} (h : (parseSensitivity).Returns p p' u) :
    (p "sensitivity" = none ∧ p' = p.set "sensitivity" (.int 99)) ∨
      ∃ v i, p "sensitivity" = some v ∧ v.asInt? = some i ∧ 0 ≤ i ∧ i ≤ 100 ∧ p' = p := by
  unfold parseSensitivity at h
  obtain ⟨p1, q, h1, h⟩ := bind_ok.1 h
  obtain ⟨rfl, rfl⟩ := get_ok.1 h1
  split at h
  · rename_i hk
    exact .inl ⟨hk, (set_ok.1 h).symm⟩
  · rename_i v hk
    split at h
    · rename_i i hi
      split at h
      · exact (early_ok.1 h).elim
      · obtain ⟨rfl, _⟩ := pure_ok.1 h
        exact .inr ⟨v, i, hk, hi, by omega, by omega, rfl⟩
    · exact (early_ok.1 h).elim

theorem parseThreshold_ok {p p' : Params} {o : Option PyFloat} (h : (parseThreshold).Returns p p' o) :
    p' = p ∧ ((p "threshold" = none ∧ o = none) ∨ ∃ f, p "threshold" = some (.float f) ∧ o = some f) := by
  unfold parseThreshold at h
  obtain ⟨p1, q, h1, h⟩ := bind_ok.1 h
  obtain ⟨rfl, rfl⟩ := get_ok.1 h1
  split at h
  · rename_i hk
    obtain ⟨rfl, rfl⟩ := pure_ok.1 h
    exact ⟨rfl, .inl ⟨hk, rfl⟩⟩
  · rename_i v hk
    split at h
    · rename_i f hf
      obtain ⟨rfl, rfl⟩ := pure_ok.1 h
      cases v <;> simp [PyVal.asFloat?] at hf
      subst hf
      exact ⟨rfl, .inr ⟨_, hk, rfl⟩⟩
    · exact (early_ok.1 h).elim

theorem parseDefaultFalse_ok {k : String} {p p' : Params} {b : Bool}
    (h : (parseDefaultFalse k).Returns p p' b) :
    p' = p.set k ((p k).getD (.bool false)) ∧ b = ((p k).getD (.bool false)).truthy := by
  unfold parseDefaultFalse at h
  obtain ⟨p1, q, h1, h⟩ := bind_ok.1 h
  obtain ⟨rfl, rfl⟩ := get_ok.1 h1
  obtain ⟨p2, u, h2, h⟩ := bind_ok.1 h
  obtain ⟨rfl, rfl⟩ := pure_ok.1 h
  exact ⟨(set_ok.1 h2).symm, rfl⟩

/-- What an accepted request says about imputation. -/
def FillFacts (p : Params) (o : Option FillUpMode × Option PyFloat) : Prop :=
  (∃ s, presentKey p "imputeMode" = some (.str s) ∧
      ((FillUpMode.ofValue s = some .fixed ∧ o = (some .fixed, none) ∧
          ∃ v f, p "imputeFixedValue" = some v ∧ v.asNumber? = some f) ∨
       (FillUpMode.ofValue s = some .zero ∧ o = (some .fixed, some (.fin 0))) ∨
       (∃ m, FillUpMode.ofValue s = some m ∧ m ≠ .fixed ∧ m ≠ .zero ∧ o = (some m, none)))) ∨
  (presentKey p "imputeMode" = none ∧ presentKey p "fillUpMode" = none ∧ o = (none, none)) ∨
  (∃ s, presentKey p "imputeMode" = none ∧ presentKey p "fillUpMode" = some (.str s) ∧
      ((FillUpMode.ofValue s = some .fixed ∧
          ∃ v f, p "fixedValue" = some v ∧ v.asNumber? = some f ∧ o = (some .fixed, some f)) ∨
       (∃ m, FillUpMode.ofValue s = some m ∧ m ≠ .fixed ∧ o = (some m, none))))

theorem parseFill_ok {p p' : Params} {o : Option FillUpMode × Option PyFloat}
    (h : (parseFill).Returns p p' o) : p' = p ∧ FillFacts p o := by
  unfold parseFill at h
  obtain ⟨p1, q, h1, h⟩ := bind_ok.1 h
  obtain ⟨rfl, rfl⟩ := get_ok.1 h1
  split at h
  · rename_i v hk
    split at h
    · rename_i s
      split at h
      · exact (early_ok.1 h).elim
      · rename_i hs
        split at h
        · exact (early_ok.1 h).elim
        · rename_i f hf
          obtain ⟨rfl, rfl⟩ := pure_ok.1 h
          obtain ⟨v, hv, hf⟩ := Option.bind_eq_some_iff.1 hf
          exact ⟨rfl, .inl ⟨s, hk, .inl ⟨hs, rfl, v, f, hv, hf⟩⟩⟩
      · rename_i hs
        obtain ⟨rfl, rfl⟩ := pure_ok.1 h
        exact ⟨rfl, .inl ⟨s, hk, .inr (.inl ⟨hs, rfl⟩)⟩⟩
      · rename_i m hf hz hs
        obtain ⟨rfl, rfl⟩ := pure_ok.1 h
        exact ⟨rfl, .inl ⟨s, hk, .inr (.inr ⟨m, hs, by simpa using hf, by simpa using hz, rfl⟩)⟩⟩
    · exact (early_ok.1 h).elim
  · rename_i hk0
    split at h
    · rename_i hk
      obtain ⟨rfl, rfl⟩ := pure_ok.1 h
      exact ⟨rfl, .inr (.inl ⟨hk0, hk, rfl⟩)⟩
    · rename_i v hk
      split at h
      · rename_i s
        split at h
        · exact (early_ok.1 h).elim
        · rename_i hs
          split at h
          · exact (early_ok.1 h).elim
          · rename_i f hf
            obtain ⟨rfl, rfl⟩ := pure_ok.1 h
            obtain ⟨v, hv, hf⟩ := Option.bind_eq_some_iff.1 hf
            exact ⟨rfl, .inr (.inr ⟨s, hk0, hk, .inl ⟨hs, v, f, hv, hf, rfl⟩⟩)⟩
        · rename_i m hf hs
          obtain ⟨rfl, rfl⟩ := pure_ok.1 h
          exact ⟨rfl, .inr (.inr ⟨s, hk0, hk, .inr ⟨m, hs, by simpa using hf, rfl⟩⟩)⟩
      · exact (early_ok.1 h).elim

theorem parseBoundary_ok {p p' : Params} {b : BoundaryVersion} (h : (parseBoundary).Returns p p' b) :
    p' = (p.set "boundaryVersion" (.bver b)).set "need_trend" (.bool (decide (b ≠ .V1))) ∧
    ((presentKey p "boundaryVersion" = none ∧ b = .V1) ∨
      ∃ s, presentKey p "boundaryVersion" = some (.str s) ∧ BoundaryVersion.ofName s = some b) := by
  unfold parseBoundary at h
  obtain ⟨p1, q, h1, h⟩ := bind_ok.1 h
  obtain ⟨rfl, rfl⟩ := get_ok.1 h1
  obtain ⟨p2, bv, h2, h⟩ := bind_ok.1 h
  obtain ⟨p3, u3, h3, h⟩ := bind_ok.1 h
  obtain ⟨p4, u4, h4, h⟩ := bind_ok.1 h
  obtain ⟨rfl, rfl⟩ := pure_ok.1 h
  have h3 := set_ok.1 h3
  have h4 := set_ok.1 h4
  subst h3
  subst h4
  unfold boundaryName at h2
  split at h2
  · rename_i hk
    obtain ⟨rfl, rfl⟩ := pure_ok.1 h2
    exact ⟨rfl, .inl ⟨hk, rfl⟩⟩
  · rename_i s hk
    split at h2
    · rename_i b hb
      obtain ⟨rfl, rfl⟩ := pure_ok.1 h2
      exact ⟨rfl, .inr ⟨s, hk, hb⟩⟩
    · exact (early_ok.1 h2).elim
  · split at h2
    · exact (early_ok.1 h2).elim
    · exact (throw_ok.1 h2).elim

theorem parseDetector_ok {p p' : Params} {o : Option (List (String × PyVal))}
    (h : (parseDetector).Returns p p' o) :
    p' = p ∧ ((o = none ∧ ∀ d, p "detector" ≠ some (.dict d)) ∨ ∃ d s q, p "detector" = some (.dict d) ∧ o = some d ∧
      Params.ofList d "name" = some (.str s) ∧ detectorNames.contains s.toLower = true ∧
      Params.ofList d "parameters" = some (.dict q)) := by
  unfold parseDetector at h
  obtain ⟨p1, q, h1, h⟩ := bind_ok.1 h
  obtain ⟨rfl, rfl⟩ := get_ok.1 h1
  split at h
  · rename_i d hk
    split at h
    · exact (early_ok.1 h).elim
    · rename_i q hq
      split at h
      · exact (early_ok.1 h).elim
      · rename_i s hs
        split at h
        · rename_i hc
          obtain ⟨rfl, rfl⟩ := pure_ok.1 h
          exact ⟨rfl, .inr ⟨d, s, q, hk, rfl, hs, hc, hq⟩⟩
        · exact (early_ok.1 h).elim
      · exact (throw_ok.1 h).elim
    · exact (early_ok.1 h).elim
  · rename_i hd
    obtain ⟨rfl, rfl⟩ := pure_ok.1 h
    exact ⟨rfl, .inl ⟨rfl, hd⟩⟩

/-- Size and values passed the validator: the first half of `series_validator`. -/
structure ValuesOk (E : Env) (hasValue : Bool) (rows : List (PyVal × PyVal)) (vs : List PyFloat) : Prop where
  lo : 12 ≤ rows.length
  hi : rows.length ≤ 8640
  values : cellValues E hasValue rows = .ok vs
  big : ∀ v ∈ vs, (PyFloat.fin (10 ^ 100)).lt v = false
  small : ∀ v ∈ vs, v.lt (.fin (-(10 ^ 100))) = false
  notNaN : ∀ v ∈ vs, v.isNaN = false

/-- The series passed the validator, which computed `idx`. -/
structure Validated (E : Env) (hasTs hasValue : Bool) (rows : List (PyVal × PyVal)) (g : Granularity)
    (interval : Option Int) (vs : List PyFloat) (idx : List Int) : Prop extends ValuesOk E hasValue rows vs where
  stamps : g ≠ .none → hasTs = true ∧ ∃ ots ts, E.toDatetime (rows.map (·.1)) = .ok ots ∧
    ascendingCode ots = 0 ∧ allStamps ots = some ts ∧ getIndices g interval ts = .ok (.ok idx)
  plain : g = .none → idx = (List.range vs.length).map Int.ofNat

theorem validateValues_ok {E : Env} {hasTs hasValue : Bool} {rows : List (PyVal × PyVal)} {needTs : Bool}
    {vs : List PyFloat} {ts : List (Option Stamp)}
    (h : validateValues E hasTs hasValue rows needTs = .ok (vs, ts)) :
    ValuesOk E hasValue rows vs ∧
    (needTs = true → hasTs = true ∧ E.toDatetime (rows.map (·.1)) = .ok ts) := by
  unfold validateValues at h
  split at h
  · cases h
  split at h
  · cases h
  split at h
  · cases h
  rename_i ws hws
  simp only at h
  split at h
  · cases h
  rename_i hst
  split at h
  · cases h
  rename_i hrange
  split at h
  · cases h
  rename_i hnan
  simp only [Except.ok.injEq, Prod.mk.injEq] at h
  obtain ⟨rfl, rfl⟩ := h
  simp only [Bool.or_eq_true, List.any_eq_true, not_or, not_exists, not_and, Bool.not_eq_true] at hrange hnan
  refine ⟨⟨by omega, by omega, hws, hrange.2, hrange.1, hnan⟩, ?_⟩
  intro hn
  rw [if_pos hn] at hst
  split at hst
  · rename_i ht
    split at hst
    · rename_i l hl
      simp only [Option.some.injEq] at hst
      subst hst
      exact ⟨ht, hl⟩
    · cases hst
  · cases hst

theorem seriesValidator_ok {E : Env} {hasTs hasValue : Bool} {rows : List (PyVal × PyVal)} {g : Granularity}
    {interval : Option Int} {p p' : Params} {u : Option String}
    (h : (seriesValidator E hasTs hasValue rows g interval).Returns p p' u) :
    (p' = p ∧ u.isSome = true) ∨
    (p' = p.set "indices" .none ∧ u.isSome = true ∧ ∃ vs, ValuesOk E hasValue rows vs) ∨
    ∃ vs idx, Validated E hasTs hasValue rows g interval vs idx ∧
      p' = p.set "indices" (PyVal.ofIntList idx) := by
  unfold seriesValidator at h
  split at h
  · obtain ⟨rfl, rfl⟩ := pure_ok.1 h
    exact .inl ⟨rfl, rfl⟩
  · rename_i vs ts hv
    obtain ⟨hvo, hts⟩ := validateValues_ok hv
    split at h
    · rename_i hg
      split at h
      · obtain ⟨rfl, rfl⟩ := pure_ok.1 h
        exact .inl ⟨rfl, rfl⟩
      · rename_i hasc
        split at h
        · exact (throw_ok.1 h).elim
        · rename_i stamps hst
          split at h
          · exact (throw_ok.1 h).elim
          · obtain ⟨p1, u1, h1, h⟩ := bind_ok.1 h
            obtain ⟨rfl, rfl⟩ := pure_ok.1 h
            exact .inr (.inl ⟨(set_ok.1 h1).symm, rfl, vs, hvo⟩)
          · rename_i idx hidx
            obtain ⟨p1, u1, h1, h⟩ := bind_ok.1 h
            obtain ⟨p2, u2, h2, h⟩ := bind_ok.1 h
            obtain ⟨rfl, rfl⟩ := get_ok.1 h2
            have hp : p1 = p' := by
              split at h
              · exact (pure_ok.1 h).1
              · exact (pure_ok.1 h).1
            subst hp
            refine .inr (.inr ⟨vs, idx, ⟨hvo, ?_, fun he => absurd he hg⟩, (set_ok.1 h1).symm⟩)
            intro _
            obtain ⟨ht, htd⟩ := hts (by simpa using hg)
            exact ⟨ht, ts, stamps, htd, by simpa using hasc, hst, hidx⟩
    · rename_i hg
      obtain ⟨p1, u1, h1, h⟩ := bind_ok.1 h
      obtain ⟨rfl, rfl⟩ := pure_ok.1 h
      exact .inr (.inr ⟨vs, _, ⟨hvo, fun he => absurd he hg, fun _ => rfl⟩, (set_ok.1 h1).symm⟩)

theorem seriesValidator_frame {E : Env} {hasTs hasValue : Bool} {rows : List (PyVal × PyVal)} {g : Granularity}
    {interval : Option Int} {p p' : Params} {u : Option String} {k : String}
    (h : (seriesValidator E hasTs hasValue rows g interval).Returns p p' u) (hk : k ≠ "indices") :
    p' k = p k := by
  rcases seriesValidator_ok h with ⟨rfl, _⟩ | ⟨rfl, _⟩ | ⟨_, _, _, rfl⟩
  · rfl
  · exact Params.set_ne _ _ hk
  · exact Params.set_ne _ _ hk

/-- Keys `parse_arg` may write. -/
def writtenKeys : List String :=
  ["granularity", "customInterval", "sensitivity", "needDetectorId", "needFillUpConfirm",
   "needSpectrumPeriod", "boundaryVersion", "need_trend", "indices"]

/-- What a successful `parse_arg` says about the request `p`, its result and the final dict `p'`. -/
structure Parsed (E : Env) (hasTs hasValue : Bool) (rows : List (PyVal × PyVal)) (p p' : Params)
    (mp : ModelParams) : Prop where
  nonempty : rows.length ≠ 0
  gran : (p "granularity" = none ∧ mp.granularity = .none) ∨
    ∃ s, p "granularity" = some (.str s) ∧ Granularity.ofName s = some mp.granularity
  interval : (p "customInterval" = none ∧ mp.interval = none) ∨
    ∃ v i, p "customInterval" = some v ∧ v.asInt? = some i ∧ 0 < i ∧ mp.interval = some i
  period : p "period" = none ∨ ∃ v i, p "period" = some v ∧ v.asInt? = some i ∧ 0 ≤ i
  alpha : (p "alpha" = none ∧ mp.alpha = none) ∨
    ∃ v f, p "alpha" = some v ∧ v.asNumber? = some f ∧ f.le (.fin 0) = false ∧ mp.alpha = some f
  ratio : (p "maxAnomalyRatio" = none ∧ mp.ratio = none) ∨
    ∃ f, p "maxAnomalyRatio" = some (.float f) ∧ f.le (.fin 0) = false ∧
      (PyFloat.fin (49 / 100)).lt f = false ∧ mp.ratio = some f
  sensitivity : (p "sensitivity" = none ∧ p' "sensitivity" = some (.int 99)) ∨
    ∃ v i, p "sensitivity" = some v ∧ v.asInt? = some i ∧ 0 ≤ i ∧ i ≤ 100 ∧ p' "sensitivity" = some v
  threshold : (p "threshold" = none ∧ mp.threshold = none) ∨
    ∃ f, p "threshold" = some (.float f) ∧ mp.threshold = some f
  fill : FillFacts p (mp.fillMode, mp.fixed)
  spectrum : mp.needSpectrum = ((p "needSpectrumPeriod").getD (.bool false)).truthy
  boundary : ∃ b, p' "boundaryVersion" = some (.bver b) ∧ mp.needTrend = decide (b ≠ .V1) ∧
    ((presentKey p "boundaryVersion" = none ∧ b = .V1) ∨
      ∃ s, presentKey p "boundaryVersion" = some (.str s) ∧ BoundaryVersion.ofName s = some b)
  detector : (mp.detector = none ∧ ∀ d, p "detector" ≠ some (.dict d)) ∨ ∃ d s q, p "detector" = some (.dict d) ∧ mp.detector = some d ∧
      Params.ofList d "name" = some (.str s) ∧ detectorNames.contains s.toLower = true ∧
      Params.ofList d "parameters" = some (.dict q)
  indices : (p "indices" = some mp.indices) ∨ (mp.indices = .none ∧ ∃ vs, ValuesOk E hasValue rows vs) ∨
    ∃ vs idx, Validated E hasTs hasValue rows mp.granularity mp.interval vs idx ∧
      mp.indices = PyVal.ofIntList idx
  frame : ∀ k, k ∉ writtenKeys → p' k = p k

theorem presentKey_congr {p q : Params} {k : String} (h : p k = q k) : presentKey p k = presentKey q k := by
  simp [presentKey, h]

theorem parseArg_ok {E : Env} {data : DataArg} {p p' : Params} {r : ParseResult}
    (h : (parseArg E data).Returns p p' r) :
    data = .frame r.hasTs r.hasValue r.rows ∧ Parsed E r.hasTs r.hasValue r.rows p p' r.mp := by
  unfold parseArg at h
  split at h
  · exact (earlyNoCode_ok.1 h).elim
  · exact (earlyNoCode_ok.1 h).elim
  · exact (throw_ok.1 h).elim
  split at h
  · exact (earlyNoCode_ok.1 h).elim
  rename_i hne
  obtain ⟨p1, g, hg, h⟩ := bind_ok.1 h
  obtain ⟨p2, iv, hiv, h⟩ := bind_ok.1 h
  obtain ⟨p3, u3, hper, h⟩ := bind_ok.1 h
  obtain ⟨p4, al, hal, h⟩ := bind_ok.1 h
  obtain ⟨p5, ra, hra, h⟩ := bind_ok.1 h
  obtain ⟨p6, u6, hse, h⟩ := bind_ok.1 h
  obtain ⟨p7, th, hth, h⟩ := bind_ok.1 h
  obtain ⟨p8, b8, h8, h⟩ := bind_ok.1 h
  obtain ⟨p9, fi, hfi, h⟩ := bind_ok.1 h
  obtain ⟨p10, b10, h10, h⟩ := bind_ok.1 h
  obtain ⟨p11, sp, hsp, h⟩ := bind_ok.1 h
  obtain ⟨p12, bv, hbv, h⟩ := bind_ok.1 h
  obtain ⟨p13, de, hde, h⟩ := bind_ok.1 h
  obtain ⟨p14, ix, hix, h⟩ := bind_ok.1 h
  obtain ⟨e1, e2⟩ := pure_ok.1 h
  subst e2
  subst e1
  refine ⟨rfl, ?_⟩
  obtain ⟨rfl, hg'⟩ := parseGranularity_ok hg
  have hiv := parseInterval_ok hiv
  have i2 : ∀ k, k ≠ "customInterval" → p2 k = (p.set "granularity" (.gran g)) k := by
    rcases hiv with ⟨-, -, rfl⟩ | ⟨-, -, -, -, -, -, rfl⟩
    · intro k hk; exact Params.set_ne _ _ hk
    · intros; rfl
  have hiv' : (p "customInterval" = none ∧ iv = none) ∨
      ∃ v i, p "customInterval" = some v ∧ v.asInt? = some i ∧ 0 < i ∧ iv = some i := by
    rcases hiv with ⟨a, b, -⟩ | ⟨v, i, a, b, c, d, -⟩
    · exact .inl ⟨by simpa [Params.set] using a, b⟩
    · exact .inr ⟨v, i, by simpa [Params.set] using a, b, c, d⟩
  obtain ⟨rfl, hper⟩ := parsePeriod_ok hper
  obtain ⟨rfl, hal⟩ := parseAlpha_ok hal
  obtain ⟨rfl, hra⟩ := parseRatio_ok hra
  have hse := parseSensitivity_ok hse
  have i6 : ∀ k, k ≠ "sensitivity" → p6 k = p5 k := by
    rcases hse with ⟨-, rfl⟩ | ⟨-, -, -, -, -, -, rfl⟩
    · intro k hk; exact Params.set_ne _ _ hk
    · intros; rfl
  obtain ⟨rfl, hth⟩ := parseThreshold_ok hth
  obtain ⟨rfl, -⟩ := parseDefaultFalse_ok h8
  obtain ⟨rfl, hfi'⟩ := parseFill_ok hfi
  obtain ⟨rfl, -⟩ := parseDefaultFalse_ok h10
  obtain ⟨rfl, rfl⟩ := parseDefaultFalse_ok hsp
  obtain ⟨rfl, hbv'⟩ := parseBoundary_ok hbv
  obtain ⟨rfl, hde'⟩ := parseDetector_ok hde
  unfold parseIndices at hix
  obtain ⟨q1, u, hsv, hix⟩ := bind_ok.1 hix
  obtain ⟨q2, q2', hget, hix⟩ := bind_ok.1 hix
  obtain ⟨rfl, rfl⟩ := get_ok.1 hget
  split at hix
  · exact (throw_ok.1 hix).elim
  rename_i v hv
  obtain ⟨rfl, rfl⟩ := pure_ok.1 hix
  have iix := fun k => seriesValidator_frame (k := k) hsv
  have hsv := seriesValidator_ok hsv
  -- the dict before validation, away from the written keys
  have i7 : ∀ k, k ≠ "granularity" → k ≠ "customInterval" → k ≠ "sensitivity" → p7 k = p k := by
    intro k a b c
    rw [i6 k c, i2 k b, Params.set_ne _ _ a]
  have gk : ∀ k, k ≠ "granularity" → k ≠ "customInterval" → p5 k = p k := by
    intro k a b; rw [i2 k b, Params.set_ne _ _ a]
  refine
    { nonempty := hne, gran := hg', interval := hiv', period := ?_, alpha := ?_, ratio := ?_, sensitivity := ?_,
      threshold := ?_, fill := ?_, spectrum := ?_, boundary := ?_, detector := ?_, indices := ?_, frame := ?_ }
  · rwa [gk _ (by decide) (by decide)] at hper
  · rwa [gk _ (by decide) (by decide)] at hal
  · rwa [gk _ (by decide) (by decide)] at hra
  · have e : q1 "sensitivity" = p7 "sensitivity" := by
      rw [iix _ (by decide)]; simp [Params.set]
    rw [e]
    rw [gk _ (by decide) (by decide)] at hse
    rcases hse with ⟨a, rfl⟩ | ⟨v, i, a, b, c, d, rfl⟩
    · exact .inl ⟨a, by simp⟩
    · refine .inr ⟨v, i, a, b, c, d, ?_⟩
      rw [gk _ (by decide) (by decide)]; exact a
  · rwa [i7 _ (by decide) (by decide) (by decide)] at hth
  · have k1 : ∀ k, k ≠ "granularity" → k ≠ "customInterval" → k ≠ "sensitivity" → k ≠ "needDetectorId" →
        (p7.set "needDetectorId" ((p7 "needDetectorId").getD (.bool false))) k = p k := by
      intro k a b c d
      rw [Params.set_ne _ _ d, i7 k a b c]
    unfold FillFacts at hfi' ⊢
    rw [presentKey_congr (k1 "imputeMode" (by decide) (by decide) (by decide) (by decide)),
      presentKey_congr (k1 "fillUpMode" (by decide) (by decide) (by decide) (by decide)),
      k1 "imputeFixedValue" (by decide) (by decide) (by decide) (by decide),
      k1 "fixedValue" (by decide) (by decide) (by decide) (by decide)] at hfi'
    exact hfi'
  · show PyVal.truthy _ = _
    congr 2
    rw [Params.set_ne _ _ (by decide), Params.set_ne _ _ (by decide)]
    exact i7 _ (by decide) (by decide) (by decide)
  · refine ⟨bv, ?_, rfl, ?_⟩
    · rw [iix _ (by decide)]; simp [Params.set]
    · rw [presentKey_congr (q := p)] at hbv'
      · exact hbv'
      · rw [Params.set_ne _ _ (by decide), Params.set_ne _ _ (by decide), Params.set_ne _ _ (by decide)]
        exact i7 _ (by decide) (by decide) (by decide)
  · have e : (((((p7.set "needDetectorId" ((p7 "needDetectorId").getD (.bool false))))) "detector")) = p "detector" := by
      rw [Params.set_ne _ _ (by decide)]; exact i7 _ (by decide) (by decide) (by decide)
    rw [Params.set_ne _ _ (by decide), Params.set_ne _ _ (by decide), Params.set_ne _ _ (by decide),
      Params.set_ne _ _ (by decide), e] at hde'
    exact hde'
  · rcases hsv with ⟨rfl, -⟩ | ⟨rfl, -, hvo⟩ | ⟨vs, idx, hval, rfl⟩
    · left
      rw [← hv]
      rw [Params.set_ne _ _ (by decide), Params.set_ne _ _ (by decide), Params.set_ne _ _ (by decide),
        Params.set_ne _ _ (by decide), Params.set_ne _ _ (by decide)]
      exact (i7 _ (by decide) (by decide) (by decide)).symm
    · right; left
      exact ⟨by simpa using hv.symm, hvo⟩
    · right; right
      exact ⟨vs, idx, hval, by simpa using hv.symm⟩
  · intro k hk
    simp only [writtenKeys, List.mem_cons, List.not_mem_nil, or_false, not_or] at hk
    obtain ⟨a, b, c, d, e, f, g, h, i⟩ := hk
    rw [iix k i, Params.set_ne _ _ h, Params.set_ne _ _ g, Params.set_ne _ _ f, Params.set_ne _ _ e,
      Params.set_ne _ _ d]
    exact i7 k a b c

/-- An accepted value is finite. -/
theorem ValuesOk.finite {E : Env} {hasValue : Bool} {rows : List (PyVal × PyVal)} {vs : List PyFloat}
    (h : ValuesOk E hasValue rows vs) : ∀ v ∈ vs, ∃ q : ℚ, v = .fin q ∧ |q| ≤ 10 ^ 100 := by
  intro v hv
  have h1 := h.big v hv
  have h2 := h.small v hv
  have h3 := h.notNaN v hv
  cases v with
  | fin q =>
    simp only [PyFloat.lt, decide_eq_false_iff_not, not_lt] at h1 h2
    exact ⟨q, rfl, abs_le.2 ⟨h2, h1⟩⟩
  | pinf => simp [PyFloat.lt] at h1
  | ninf => simp [PyFloat.lt] at h2
  | nan => simp [PyFloat.isNaN] at h3

theorem mapM_finite {vs : List PyFloat} (h : ∀ v ∈ vs, ∃ q : ℚ, v = .fin q) :
    ∃ l : List ℚ, vs.mapM finite? = some l ∧ vs = l.map PyFloat.fin := by
  induction vs with
  | nil => exact ⟨[], rfl, rfl⟩
  | cons v t ih =>
    obtain ⟨q, rfl⟩ := h v (by simp)
    obtain ⟨l, hl, rfl⟩ := ih fun w hw => h w (by simp [hw])
    exact ⟨q :: l, by simp [List.mapM_cons, finite?, hl], rfl⟩

theorem mapM_finite_eq {vs : List PyFloat} {l : List ℚ} (h : vs.mapM finite? = some l) :
    vs = l.map PyFloat.fin := by
  induction vs generalizing l with
  | nil => simp at h; subst h; rfl
  | cons v t ih =>
    rw [List.mapM_cons] at h
    obtain ⟨q, hq, h⟩ := Option.bind_eq_some_iff.1 h
    obtain ⟨l', hl', h⟩ := Option.bind_eq_some_iff.1 h
    cases h
    cases v <;> simp [finite?] at hq
    subst hq
    rw [ih hl']
    rfl

/-- How a call of `predict` can return a result. -/
theorem predict_ok {E : Env} {W : Wild} {d : Detector} {data : DataArg} {params : Params} {items : List Item}
    (h : (predict E W d data params).outcome = .ok items) :
    ∃ hasTs hasValue rows mp p' m, data = .frame hasTs hasValue rows ∧
      Parsed E hasTs hasValue rows params p' mp ∧ currentMode d.mode p' = some m ∧
      (predict E W d data params).detector.mode = m ∧ (predict E W d data params).params = p' ∧
      (runModel E m hasTs hasValue rows mp p' = .ok items ∨
       (runModel E m hasTs hasValue rows mp p' = .error .unmodelled ∧ W.run m hasTs hasValue rows mp p' = .ok items)) := by
  unfold predict at h ⊢
  split at h
  · cases h
  · cases h
  · rename_i p' r hpa
    obtain ⟨hd, hp⟩ := parseArg_ok hpa
    unfold afterParse at h ⊢
    split at h
    · cases h
    · rename_i m hm
      refine ⟨r.hasTs, r.hasValue, r.rows, r.mp, p', m, hd, hp, hm, ?_, ?_, ?_⟩
      · split <;> rfl
      · split <;> rfl
      · split at h
        · rename_i hr
          simp only [Except.ok.injEq] at h
          subst h
          exact .inl hr
        · cases h
        · rename_i hr
          exact .inr ⟨hr, h⟩

/-- Without a caller-supplied `indices` entry a result means that the series passed validation. -/
theorem predict_validated {E : Env} {W : Wild} {d : Detector} {data : DataArg} {params : Params}
    {items : List Item} (hno : params "indices" = none)
    (h : (predict E W d data params).outcome = .ok items) :
    ∃ hasTs hasValue rows mp p' m vs idx, data = .frame hasTs hasValue rows ∧
      Parsed E hasTs hasValue rows params p' mp ∧ currentMode d.mode p' = some m ∧
      Validated E hasTs hasValue rows mp.granularity mp.interval vs idx ∧
      mp.indices = PyVal.ofIntList idx ∧
      (runModel E m hasTs hasValue rows mp p' = .ok items ∨
       (runModel E m hasTs hasValue rows mp p' = .error .unmodelled ∧ W.run m hasTs hasValue rows mp p' = .ok items)) := by
  obtain ⟨hasTs, hasValue, rows, mp, p', m, hd, hp, hm, -, -, hr⟩ := predict_ok h
  rcases hp.indices with hi | ⟨hi, vs, hvs⟩ | ⟨vs, idx, hval, hi⟩
  · rw [hno] at hi; cases hi
  · exfalso
    have : runModel E m hasTs hasValue rows mp p' = .error (.err .valueError) := by
      obtain ⟨l, hl, -⟩ := mapM_finite fun v hv => (hvs.finite v hv).imp fun _ h => h.1
      unfold runModel
      rw [hvs.values]
      simp [lift, Bind.bind, Except.bind, Model.init, hl, hi]
    rw [this] at hr
    simp at hr
  · exact ⟨hasTs, hasValue, rows, mp, p', m, vs, idx, hd, hp, hm, hval, hi, hr⟩

end Verif
