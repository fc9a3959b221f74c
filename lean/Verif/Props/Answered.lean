import Verif.Props.Answers
import Verif.Props.Sparse

/-!
# Which requests are answered (C117)
-/

namespace Verif

open Spec PM

/-! ### positions start at 0 -/

theorem intLoop_head {x : ℚ} {t : List ℚ} {i : Nat} {idx : List Int} (h : intLoop (x :: t) i = .ok idx) (hx : x = 0) :
    idx.head? = some 0 := by
  have := intLoop_ok h
  cases idx with
  | nil => simp at this
  | cons k l =>
    simp only [List.map_cons, List.cons.injEq] at this
    have e : (k : ℚ) = 0 := by rw [← this.1, hx]
    simp only [List.head?_cons, Option.some.injEq]
    exact_mod_cast e

theorem dateDifference_self (s : Stamp) : getDateDifference s s = ⟨0, 0, 0⟩ := by
  simp [getDateDifference]

theorem getIndices_head {g : Granularity} {ci : Option Int} {ts : List Stamp} {idx : List Int} (hne : ts ≠ [])
    (h : getIndices g ci ts = .ok (.ok idx)) : idx.head? = some 0 := by
  cases ts with
  | nil => exact absurd rfl hne
  | cons s t =>
    unfold getIndices at h
    dsimp only at h
    split at h
    · split at h
      · cases h
      · simp only [Except.ok.injEq, List.map_cons] at h
        exact intLoop_head h (by simp)
    · split at h
      · cases h
      · simp only [Except.ok.injEq, List.map_cons] at h
        exact intLoop_head h (by simp [dateDifference_self])
    · split at h
      · cases h
      · simp only [Except.ok.injEq, List.map_cons] at h
        exact intLoop_head h (by simp [dateDifference_self])
    · split at h
      · cases h
      · simp only [Except.ok.injEq, List.map_cons] at h
        refine intLoop_head h ?_
        rw [sub_self, show roundSigned 0 = 0 by decide +kernel, zero_div]
        decide +kernel

theorem validated_head {E : Env} (hE : E.WF) {hasTs hasValue : Bool} {rows : List (PyVal × PyVal)} {g : Granularity}
    {o : Option Int} {vs : List PyFloat} {idx : List Int} (hv : Validated E hasTs hasValue rows g o vs idx) :
    idx.head? = some 0 := by
  obtain ⟨h1, h2⟩ := validated_len hE hv
  have hlo := hv.lo
  by_cases hg : g = .none
  · rw [hv.plain hg]
    cases hn : vs.length with
    | zero => omega
    | succ n => simp [List.range_succ_eq_map]
  · obtain ⟨-, ots, ts, ha, -, hb, hc⟩ := hv.stamps hg
    refine getIndices_head ?_ hc
    rintro rfl
    have := allStamps_len hb
    rw [hE.toDatetime_len _ _ ha, List.length_map] at this
    simp at this
    omega

/-! ### what is filled -/

theorem leavesGaps_iff {p : Params} {o : Option FillUpMode × Option PyFloat} (h : FillFacts p o) :
    (o.1.getD .auto = .no ∨ o.1.getD .auto = .zero ∨ o.1.getD .auto = .notFill) ↔ LeavesGaps p := by
  have str : ∀ {k s}, presentKey p k = some (.str s) → p k = some (.str s) := by
    intro k s h
    unfold presentKey at h
    split at h
    · cases h
    · exact h
  have absent : ∀ {k}, presentKey p k = none → AbsentOrNone p k := by
    intro k h
    unfold presentKey at h
    split at h
    · exact .inr ‹_›
    · exact .inl h
  have notabsent : ∀ {k s}, p k = some (.str s) → ¬ AbsentOrNone p k := by
    rintro k s h (h' | h') <;> rw [h] at h' <;> cases h'
  rcases h with ⟨s, hk, h⟩ | ⟨h1, h2, rfl⟩ | ⟨s, h1, hk, h⟩
  · have hs := str hk
    have e : LeavesGaps p ↔ s ∈ ["no", "notFill"] := by
      unfold LeavesGaps
      constructor
      · rintro (⟨s', hs', h'⟩ | ⟨h', -⟩)
        · rw [hs] at h'
          cases h'
          exact hs'
        · exact absurd h' (notabsent hs)
      · exact fun h => .inl ⟨s, h, hs⟩
    rw [e]
    rcases h with ⟨hm, rfl, -⟩ | ⟨hm, rfl⟩ | ⟨m, hm, hf, hz, rfl⟩
    all_goals
      unfold FillUpMode.ofValue at hm
      repeat' split at hm
      all_goals first
        | cases hm; done
        | (cases hm; simp_all)
  · have e : ¬ LeavesGaps p := by
      rintro (⟨s, -, h'⟩ | ⟨-, s, -, h'⟩)
      · exact notabsent h' (absent h1)
      · exact notabsent h' (absent h2)
    simp [e]
  · have hs := str hk
    have e : LeavesGaps p ↔ s ∈ ["no", "zero", "notFill"] := by
      unfold LeavesGaps
      constructor
      · rintro (⟨s', -, h'⟩ | ⟨-, s', hs', h'⟩)
        · exact absurd (absent h1) (notabsent h')
        · rw [hs] at h'
          cases h'
          exact hs'
      · exact fun h => .inr ⟨absent h1, s, h, hs⟩
    rw [e]
    rcases h with ⟨hm, v, f, -, -, rfl⟩ | ⟨m, hm, hf, rfl⟩
    all_goals
      unfold FillUpMode.ofValue at hm
      repeat' split at hm
      all_goals first
        | cases hm; done
        | (cases hm; simp_all)

/-! ### a request that reaches the models -/

/-- a parsed request with a configured model -/
structure Reached (E : Env) (W : Wild) (d : Detector) (hasTs hasValue : Bool) (rows : List (PyVal × PyVal)) (params : Params)
    (idx : List Int) (p' : Params) (mp : ModelParams) (m : PyVal) (M : Model) : Prop where
  parsed : Parsed E hasTs hasValue rows params p' mp
  config : ∃ vs, Configured E vs mp M
  ready : Ready M idx
  len : M.values.length = rows.length
  outcome : (predict E W d (.frame hasTs hasValue rows) params).outcome = Stop.outcome (do
    let (rs, period, model) ← M.detect E none (paramPeriod p') (isLatest m)
    lift (finish m (rowStamps hasTs rows) rs period model (paramSens p') (paramBoundary p') mp.granularity))

theorem reached {E : Env} (hE : E.WF) (W : Wild) {d : Detector} {hasTs hasValue : Bool}
    {rows : List (PyVal × PyVal)} {params : Params} (ha : Admissible params) (hd : NoDetector params)
    {g : Granularity} {o : Option Int} {vs : List PyFloat} {idx : List Int} (hg : GranularityOf params g)
    (ho : IntervalOf params o) (hv : Validated E hasTs hasValue rows g o vs idx)
    (hmode : d.mode.isNone = false ∨ ∃ m, params "detect_mode" = some m) (hs : idx.Pairwise (· < ·))
    (hf : FiniteFill E (.frame hasTs hasValue rows) params) :
    ∃ p' mp m M, Reached E W d hasTs hasValue rows params idx p' mp m M ∧ mp.granularity = g := by
  obtain ⟨p', r, hr, r1, r2, r3, r4, r5, r6, r7, -⟩ := parseArg_complete ha hd hg ho hv
  obtain ⟨-, hP⟩ := parseArg_ok hr
  rw [r5, r6, r7] at hP
  obtain ⟨hl1, hl2⟩ := validated_len hE hv
  have h0 := validated_head hE hv
  have hne : idx ≠ [] := by
    rintro rfl
    simp at h0
  obtain ⟨m, hm⟩ : ∃ m, currentMode d.mode p' = some m := by
    unfold currentMode
    rcases hmode with h | ⟨m, h⟩
    · rw [h]; exact ⟨_, rfl⟩
    · split
      · rw [hP.frame _ (by decide)]; exact ⟨m, h⟩
      · exact ⟨_, rfl⟩
  obtain ⟨l, hl, rfl⟩ := mapM_finite fun v hv' => (hv.toValuesOk.finite v hv').imp fun _ h => h.1
  rw [List.length_map] at hl1
  obtain ⟨P, hP2⟩ := init_complete (vs := l) (by omega) hs h0
  have hM : ∃ M, Model.init E (l.map .fin) r.mp = .ok M ∧ M.fill = P ∧ M.values = l := by
    unfold Model.init
    rw [hl, r1]
    unfold PyVal.ofIntList
    simp only [PyVal.asIntList?_map, hP2]
    exact ⟨_, rfl, rfl, rfl⟩
  obtain ⟨M, hM, hMf, hMv⟩ := hM
  have hc := modelInit_ok hM
  have hinit : FillProc.init idx M.values = .ok M.fill := by rw [hMv, hMf]; exact hP2
  rw [← r2, ← r3] at hv
  have hsound := finiteFill_sound hE hP hf hc hv hne hinit
  have hlo := hv.lo
  have hhi := hv.hi
  refine ⟨p', r.mp, m, M, ⟨hP, ⟨_, hc⟩, ⟨hne, hinit, hsound, by rw [hMv]; omega, by rw [hMv]; omega⟩, by rw [hMv]; exact hl1, ?_⟩, r2⟩
  have hmod := run_modelled hE hP hf hv r1 m
  have hrun : runModel E m hasTs hasValue rows r.mp p' = (do
      let (rs, period, model) ← M.detect E none (paramPeriod p') (isLatest m)
      lift (finish m (rowStamps hasTs rows) rs period model (paramSens p') (paramBoundary p') r.mp.granularity)) := by
    unfold runModel
    rw [hv.values, r4]
    simp only [lift, hM, Bind.bind, Except.bind]
  rw [← hrun]
  unfold predict
  have hr : parseArg E (.frame hasTs hasValue rows) params = (p', .ok r) := hr
  rw [hr]
  simp only
  rw [afterParse_outcome (d := d.update (some r.code)) (m := m) hm (by rw [r5, r6, r7]; exact hmod), r5, r6, r7]

theorem Reached.sens {E : Env} {W : Wild} {d : Detector} {hasTs hasValue : Bool} {rows : List (PyVal × PyVal)} {params : Params}
    {idx : List Int} {p' : Params} {mp : ModelParams} {m : PyVal} {M : Model}
    (h : Reached E W d hasTs hasValue rows params idx p' mp m M) : 0 ≤ paramSens p' ∧ paramSens p' ≤ 100 := by
  unfold paramSens
  rcases h.parsed.sensitivity with ⟨-, e⟩ | ⟨v, i, -, hi, a, b, e⟩
  · rw [e]; exact ⟨by decide, by decide⟩
  · rw [e]
    simp only [Option.bind_some, hi, Option.getD_some]
    exact ⟨a, b⟩

theorem Reached.answers {E : Env} (hE : E.WF) (hT : Total E) {W : Wild} {d : Detector} {hasTs hasValue : Bool}
    {rows : List (PyVal × PyVal)} {params : Params} {idx : List Int} {p' : Params} {mp : ModelParams} {m : PyVal} {M : Model}
    (h : Reached E W d hasTs hasValue rows params idx p' mp m M)
    (hs : Runs (M.select E (paramPeriod p') (isLatest m))) :
    ∃ items, (predict E W d (.frame hasTs hasValue rows) params).outcome = .ok items := by
  rw [h.outcome]
  obtain ⟨⟨rs, p, model⟩, hd⟩ := detect_runs hE hT h.ready hs
  have hl := detect_length hE h.ready hd
  have hlo := h.ready.lo
  obtain ⟨items, hi⟩ := finish_runs (mode := m) (stamps := rowStamps hasTs rows) (rows := rs)
    (by rw [hl, h.len]; unfold rowStamps; split <;> simp) (by omega) p model h.sens.1 h.sens.2 (paramBoundary p')
    mp.granularity
  refine ⟨items, ?_⟩
  rw [hd]
  simp only [Bind.bind, Except.bind]
  rw [hi]
  rfl

theorem Reached.used {E : Env} {W : Wild} {d : Detector} {hasTs hasValue : Bool} {rows : List (PyVal × PyVal)} {params : Params}
    {idx : List Int} {p' : Params} {mp : ModelParams} {m : PyVal} {M : Model}
    (h : Reached E W d hasTs hasValue rows params idx p' mp m M) {n : Int} (hn : Analysed params rows.length idx n)
    (hd : M.fill.missingRatio ≤ 1 / 2) : (usedLen M M.mode : Int) = n := by
  obtain ⟨vs, hc⟩ := h.config
  have key := leavesGaps_iff h.parsed.fill
  dsimp only at key
  rw [← hc.mode] at key
  have hg := h.ready.sound.good
  have h1 := allCount_last h.ready.ne h.ready.init
  have h2 := h.ready.fillLen
  have h3 := hg.len
  have h4 := hg.missing
  have hhi := h.ready.hi
  have h5 : (0 : ℚ) < M.fill.allCount := by exact_mod_cast hg.pos
  unfold FillProc.missingRatio at hd
  rw [div_le_iff₀ h5] at hd
  have h6 : 2 * M.fill.missing ≤ M.fill.allCount := by
    have : (2 * M.fill.missing : ℚ) ≤ M.fill.allCount := by linarith
    exact_mod_cast this
  have hlen := h.len
  unfold usedLen
  rcases hn with ⟨hl, rfl⟩ | ⟨hl, rfl⟩
  · rw [if_neg]
    · exact_mod_cast hlen
    · rintro ⟨-, a, b, c⟩
      rcases key.2 hl with e | e | e
      · exact a e
      · exact b e
      · exact c e
  · by_cases hneed : M.fill.need = true
    · rw [if_pos]
      · exact h1
      · refine ⟨hneed, fun e => hl (key.1 (.inl e)), fun e => hl (key.1 (.inr (.inl e))), fun e => hl (key.1 (.inr (.inr e)))⟩
    · rw [if_neg (fun hc => hneed hc.1)]
      have : ¬ (M.fill.indices.length < M.fill.allCount ∧ M.fill.allCount ≤ 17280) := fun hc => hneed (hg.need.2 hc)
      omega

theorem Reached.ratio {E : Env} {W : Wild} {d : Detector} {hasTs hasValue : Bool} {rows : List (PyVal × PyVal)} {params : Params}
    {idx : List Int} {p' : Params} {mp : ModelParams} {m : PyVal} {M : Model}
    (h : Reached E W d hasTs hasValue rows params idx p' mp m M) (hnan : params "maxAnomalyRatio" ≠ some (.float .nan)) :
    ∃ r : ℚ, M.ratio = .fin r ∧ 0 ≤ r ∧ r ≤ 49 / 100 ∧ (ModestRatio params → r ≤ 3 / 8) := by
  obtain ⟨vs, hc⟩ := h.config
  rw [hc.ratio]
  rcases h.parsed.ratio with ⟨e1, e2⟩ | ⟨f, e1, h1, h2, e2⟩
  · rw [e2]
    refine ⟨25 / 100, rfl, by norm_num, by norm_num, fun _ => by norm_num⟩
  · rw [e2]
    simp only [Option.getD_some]
    cases f with
    | nan => exact absurd e1 hnan
    | pinf => simp [PyFloat.lt] at h2
    | ninf => simp [PyFloat.le] at h1
    | fin q =>
      simp only [PyFloat.le, PyFloat.lt, decide_eq_false_iff_not, not_le, not_lt] at h1 h2
      refine ⟨q, rfl, h1.le, h2, ?_⟩
      rintro (e | ⟨q', e, hq⟩)
      · unfold Absent at e
        rw [e1] at e
        cases e
      · rw [e1] at e
        cases e
        exact hq

theorem Reached.period {E : Env} {W : Wild} {d : Detector} {hasTs hasValue : Bool} {rows : List (PyVal × PyVal)} {params : Params}
    {idx : List Int} {p' : Params} {mp : ModelParams} {m : PyVal} {M : Model}
    (h : Reached E W d hasTs hasValue rows params idx p' mp m M) :
    paramPeriod p' = paramPeriod params := by
  unfold paramPeriod
  rw [h.parsed.frame _ (by decide)]

theorem paramPeriod_int {p : Params} {v : PyVal} {i : Int} (h : p "period" = some v) (hi : IsInt v i) :
    paramPeriod p = some i.toNat := by
  unfold paramPeriod
  rw [h]
  simp [isInt_asInt hi]

theorem Reached.dense {E : Env} {W : Wild} {d : Detector} {hasTs hasValue : Bool} {rows : List (PyVal × PyVal)} {params : Params}
    {idx : List Int} {p' : Params} {mp : ModelParams} {m : PyVal} {M : Model}
    (h : Reached E W d hasTs hasValue rows params idx p' mp m M) (hd : idx.getLastD 0 + 1 ≤ 2 * (rows.length : Int)) :
    M.fill.missingRatio ≤ 1 / 2 := by
  rw [← not_lt, sparse_iff h.ready.ne h.ready.init]
  have : idx.length = rows.length := by
    rw [(FillProc.init_good h.ready.ne h.ready.init).2.1, List.length_map, h.ready.sound.good.len, h.ready.fillLen, h.len]
  omega

/-! ### the theorems -/

/-- **C117**, the period is detected: every valid request with a granularity other than `microsecond` and a ratio up to 3/8
is answered. -/
theorem C117_detected {E : Env} (hE : E.WF) (hT : Total E) {W : Wild} {d : Detector} {hasTs hasValue : Bool}
    {rows : List (PyVal × PyVal)} {params : Params} (ha : Admissible params) (hd : NoDetector params)
    {g : Granularity} {o : Option Int} {vs : List PyFloat} {idx : List Int} (hg : GranularityOf params g)
    (ho : IntervalOf params o) (hv : Validated E hasTs hasValue rows g o vs idx)
    (hmode : d.mode.isNone = false ∨ ∃ m, params "detect_mode" = some m) (hs : idx.Pairwise (· < ·))
    (hf : FiniteFill E (.frame hasTs hasValue rows) params) (hper : Absent params "period") (hgm : g ≠ .microsecond)
    (hr : ModestRatio params) :
    ∃ items, (predict E W d (.frame hasTs hasValue rows) params).outcome = .ok items := by
  obtain ⟨p', mp, m, M, h, rfl⟩ := reached hE W ha hd hg ho hv hmode hs hf
  obtain ⟨r, e, h0, -, h38⟩ := h.ratio (by
    rcases hr with e | ⟨q, e, -⟩
    · unfold Absent at e
      rw [e]
      exact nofun
    · rw [e]
      simp)
  refine h.answers hE hT ?_
  have : paramPeriod p' = none := by
    rw [h.period]
    unfold paramPeriod
    unfold Absent at hper
    rw [hper]
    rfl
  rw [this]
  obtain ⟨vs, hc⟩ := h.config
  exact select_runs_detected hE hT h.ready e h0 _ (by rw [hc.gran]; exact hgm) (h38 hr)

/-- **C117**, period 0 or 1 is requested: every valid request is answered, whatever its gaps and its granularity. -/
theorem C117_unseasonal {E : Env} (hE : E.WF) (hT : Total E) {W : Wild} {d : Detector} {hasTs hasValue : Bool}
    {rows : List (PyVal × PyVal)} {params : Params} (ha : Admissible params) (hd : NoDetector params)
    {g : Granularity} {o : Option Int} {vs : List PyFloat} {idx : List Int} (hg : GranularityOf params g)
    (ho : IntervalOf params o) (hv : Validated E hasTs hasValue rows g o vs idx)
    (hmode : d.mode.isNone = false ∨ ∃ m, params "detect_mode" = some m) (hs : idx.Pairwise (· < ·))
    (hf : FiniteFill E (.frame hasTs hasValue rows) params) {v : PyVal} {i : Int} (hper : params "period" = some v)
    (hi : IsInt v i) (h1 : i ≤ 1) (hnan : params "maxAnomalyRatio" ≠ some (.float .nan)) :
    ∃ items, (predict E W d (.frame hasTs hasValue rows) params).outcome = .ok items := by
  obtain ⟨p', mp, m, M, h, rfl⟩ := reached hE W ha hd hg ho hv hmode hs hf
  obtain ⟨r, e, h0, -, -⟩ := h.ratio hnan
  refine h.answers hE hT ?_
  rw [h.period, paramPeriod_int hper hi]
  exact select_runs_asked hE hT h.ready e h0 _ (by omega) (by omega)

/-- **C117**, a period above 1 is requested and at most half of the grid is missing: with a ratio up to 3/8 the request is
answered if more than two periods fit into the analysed series. -/
theorem C117_seasonal {E : Env} (hE : E.WF) (hT : Total E) {W : Wild} {d : Detector} {hasTs hasValue : Bool}
    {rows : List (PyVal × PyVal)} {params : Params} (ha : Admissible params) (hd : NoDetector params)
    {g : Granularity} {o : Option Int} {vs : List PyFloat} {idx : List Int} (hg : GranularityOf params g)
    (ho : IntervalOf params o) (hv : Validated E hasTs hasValue rows g o vs idx)
    (hmode : d.mode.isNone = false ∨ ∃ m, params "detect_mode" = some m) (hs : idx.Pairwise (· < ·))
    (hf : FiniteFill E (.frame hasTs hasValue rows) params) {v : PyVal} {i n : Int} (hper : params "period" = some v)
    (hi : IsInt v i) (hdense : idx.getLastD 0 + 1 ≤ 2 * (rows.length : Int))
    (hn : Analysed params rows.length idx n) (h2 : 2 * i < n) (hr : ModestRatio params) :
    ∃ items, (predict E W d (.frame hasTs hasValue rows) params).outcome = .ok items := by
  obtain ⟨p', mp, m, M, h, rfl⟩ := reached hE W ha hd hg ho hv hmode hs hf
  obtain ⟨r, e, h0, -, h38⟩ := h.ratio (by
    rcases hr with e | ⟨q, e, -⟩
    · unfold Absent at e
      rw [e]
      exact nofun
    · rw [e]
      simp)
  refine h.answers hE hT ?_
  rw [h.period, paramPeriod_int hper hi]
  have hu := h.used hn (h.dense hdense)
  exact select_runs_asked hE hT h.ready e h0 _ (fun _ => h.dense hdense) (fun _ => ⟨by omega, h38 hr⟩)

/-- **C117**, a period above 1 is requested, at most half of the grid is missing and at most two periods fit into the
analysed series: ValueError. -/
theorem C117_too_long {E : Env} (hE : E.WF) (hT : Total E) {W : Wild} {d : Detector} {hasTs hasValue : Bool}
    {rows : List (PyVal × PyVal)} {params : Params} (ha : Admissible params) (hd : NoDetector params)
    {g : Granularity} {o : Option Int} {vs : List PyFloat} {idx : List Int} (hg : GranularityOf params g)
    (ho : IntervalOf params o) (hv : Validated E hasTs hasValue rows g o vs idx)
    (hmode : d.mode.isNone = false ∨ ∃ m, params "detect_mode" = some m) (hs : idx.Pairwise (· < ·))
    (hf : FiniteFill E (.frame hasTs hasValue rows) params) {v : PyVal} {i n : Int} (hper : params "period" = some v)
    (hi : IsInt v i) (h1 : 1 < i) (hdense : idx.getLastD 0 + 1 ≤ 2 * (rows.length : Int))
    (hn : Analysed params rows.length idx n) (h2 : n ≤ 2 * i) :
    (predict E W d (.frame hasTs hasValue rows) params).outcome = .error .valueError := by
  obtain ⟨p', mp, m, M, h, rfl⟩ := reached hE W ha hd hg ho hv hmode hs hf
  have hdn := h.dense hdense
  have hu := h.used hn hdn
  have h1' : 1 < i.toNat := by omega
  obtain ⟨full, hfull⟩ := usedSeries_runs hE hT h.ready (p := i.toNat) fun _ => hdn
  obtain ⟨l1, -, l3⟩ := h.ready.full_len hE hfull
  have l3 := l3 h1'
  have hsel : M.select E (some i.toNat) (isLatest m) = .error (.err .valueError) := by
    unfold Model.select
    simp only [Model.usedPeriod, Bind.bind, Except.bind, hfull]
    split
    · rename_i ratio hratio
      have hrun : M.run E ((full.map (·.1)).getD M.values) ratio i.toNat (isLatest m) = .error .valueError := by
        unfold Model.run
        rw [if_pos h1']
        unfold tsDetection
        dsimp only
        split
        · rfl
        · rw [if_neg (by omega), if_pos (by omega)]
      rw [hrun]
      rfl
    · unfold Model.runNaN
      rw [if_pos h1', if_neg (by omega), if_pos (by omega)]
      rfl
  rw [h.outcome, h.period, paramPeriod_int hper hi]
  unfold Model.detect
  dsimp only
  rw [hsel]
  rfl

/-- **C117**, two rows at one position of the grid: ValueError. -/
theorem C117_collision {E : Env} {W : Wild} {d : Detector} {hasTs hasValue : Bool}
    {rows : List (PyVal × PyVal)} {params : Params} (ha : Admissible params) (hd : NoDetector params)
    {g : Granularity} {o : Option Int} {vs : List PyFloat} {idx : List Int} (hg : GranularityOf params g)
    (ho : IntervalOf params o) (hv : Validated E hasTs hasValue rows g o vs idx)
    (hmode : d.mode.isNone = false ∨ ∃ m, params "detect_mode" = some m) (hs : ¬ idx.Pairwise (· < ·)) :
    (predict E W d (.frame hasTs hasValue rows) params).outcome = .error .valueError := by
  obtain ⟨p', r, hr, r1, r2, r3, r4, r5, r6, r7, -⟩ := parseArg_complete ha hd hg ho hv
  obtain ⟨-, hP⟩ := parseArg_ok hr
  obtain ⟨m, hm⟩ : ∃ m, currentMode d.mode p' = some m := by
    unfold currentMode
    rcases hmode with h | ⟨m, h⟩
    · rw [h]; exact ⟨_, rfl⟩
    · split
      · rw [hP.frame _ (by decide)]; exact ⟨m, h⟩
      · exact ⟨_, rfl⟩
  obtain ⟨l, hl, rfl⟩ := mapM_finite fun v hv' => (hv.toValuesOk.finite v hv').imp fun _ h => h.1
  have order : ∀ (t : List Int) (k : Int), ¬ (k :: t).Pairwise (· < ·) → orderLoop k t = .error .valueError := by
    intro t
    induction t with
    | nil => intro k h; simp at h
    | cons a t ih =>
      intro k h
      rw [orderLoop]
      split
      · rfl
      · rename_i hk
        have : ¬ (a :: t).Pairwise (· < ·) := by
          intro hp
          apply h
          rw [List.pairwise_cons]
          refine ⟨?_, hp⟩
          intro b hb
          rw [List.pairwise_cons] at hp
          rcases List.mem_cons.1 hb with rfl | hb
          · omega
          · have := hp.1 b hb
            omega
        rw [ih a this]
  have hinit : FillProc.init idx l = .error .valueError := by
    cases idx with
    | nil => simp at hs
    | cons k t =>
      show (if _ then _ else _) = _
      rw [order t k hs]
      split <;> rfl
  have hrun : runModel E m r.hasTs r.hasValue r.rows r.mp p' = .error (.err .valueError) := by
    unfold runModel
    rw [r5, r7, hv.values]
    simp only [lift, Bind.bind, Except.bind]
    unfold Model.init
    rw [hl, r1]
    unfold PyVal.ofIntList
    simp only [PyVal.asIntList?_map, hinit, lift, Bind.bind, Except.bind]
  unfold predict
  have hr : parseArg E (.frame hasTs hasValue rows) params = (p', .ok r) := hr
  rw [hr]
  simp only
  rw [afterParse_outcome (d := d.update (some r.code)) (m := m) hm (by rw [hrun]; exact modelled_err _), hrun]
  rfl

/-! ### the hypotheses are met -/

theorem demoEnv_total : Total demoEnv where
  trend := fun _ _ _ => ⟨_, rfl⟩
  trendNaN := fun _ _ => ⟨_, rfl⟩
  stl := fun _ _ _ _ _ _ => ⟨_, rfl⟩
  spline := by
    intro i v n hi hl _ _
    refine ⟨_, if_pos ⟨?_, hl⟩⟩
    exact hi.imp fun h => Nat.ne_of_lt h

/-- fourteen seconds, the last but one of the grid is missing -/
def lateRows : List (PyVal × PyVal) :=
  demoSeries.zipIdx.map fun x => (.int (if x.2 = 13 then 14 else x.2), .int x.1)

def lateIdx : List Int := [0, 1, 2, 3, 4, 5, 6, 7, 8, 9, 10, 11, 12, 14]

theorem lateRows_validated :
    Validated demoEnv true true lateRows .secondly none (demoSeries.map fun i : Int => .fin i) lateIdx := by
  refine ⟨⟨by decide, by decide, by decide +kernel, by decide +kernel, by decide +kernel, by decide +kernel⟩, ?_, by simp⟩
  intro _
  exact ⟨rfl, lateIdx.map fun k => some (demoStamp k), lateIdx.map demoStamp, by decide +kernel, by decide +kernel,
    by decide +kernel, by decide +kernel⟩

/-- `C117_detected`: the gap is filled, the period is detected -/
example : ∃ items, (predict demoEnv demoWild entireDetector (.frame true true lateRows)
    (Params.ofList [("granularity", .str "secondly")])).outcome = .ok items := by
  refine C117_detected demoEnv_WF demoEnv_total ?_ ?_ (.inr ⟨"secondly", by simp [Params.ofList, Params.set], by decide⟩)
    (.inl ⟨by simp [Params.ofList, Params.set], rfl⟩) lateRows_validated (.inl rfl) (by decide) (.inl ?_) ?_ (by decide) (.inl ?_)
  · rw [admissible_iff]
    simp [checks, Params.ofList, Params.set, Absent, AbsentOrNone, granularityNames]
  all_goals simp [NoDetector, Params.ofList, Params.set, Absent]

/-- `C117_unseasonal` with the largest ratio -/
example : ∃ items, (predict demoEnv demoWild entireDetector (.frame true true lateRows) (Params.ofList
    [("granularity", .str "secondly"), ("period", .int 0), ("maxAnomalyRatio", .float (.fin (49 / 100)))])).outcome =
      .ok items := by
  refine C117_unseasonal demoEnv_WF demoEnv_total ?_ ?_ (.inr ⟨"secondly", by simp [Params.ofList, Params.set], by decide⟩)
    (.inl ⟨by simp [Params.ofList, Params.set], rfl⟩) lateRows_validated (.inl rfl) (by decide) (.inl ?_)
    (v := .int 0) ?_ (.int 0) (by decide) ?_
  · rw [admissible_iff]
    simp [checks, Params.ofList, Params.set, Absent, AbsentOrNone, granularityNames]
    exact ⟨0, .int 0, by norm_num⟩
  all_goals simp [NoDetector, Params.ofList, Params.set]

/-- `C117_seasonal` and `C117_too_long`: two periods of 7 fit into the 15 positions of the grid, but not into the 14 rows -/
example : (∃ items, (predict demoEnv demoWild entireDetector (.frame true true lateRows) (Params.ofList
      [("granularity", .str "secondly"), ("period", .int 7)])).outcome = .ok items) ∧
    (predict demoEnv demoWild entireDetector (.frame true true lateRows) (Params.ofList
      [("granularity", .str "secondly"), ("period", .int 7), ("imputeMode", .str "notFill")])).outcome =
        .error .valueError := by
  constructor
  · refine C117_seasonal demoEnv_WF demoEnv_total ?_ ?_ (.inr ⟨"secondly", by simp [Params.ofList, Params.set], by decide⟩)
      (.inl ⟨by simp [Params.ofList, Params.set], rfl⟩) lateRows_validated (.inl rfl) (by decide) (.inl ?_) (v := .int 7) ?_
      (.int 7) (by decide) (n := 15) (.inr ⟨?_, by decide⟩) (by decide) (.inl ?_)
    · rw [admissible_iff]
      simp [checks, Params.ofList, Params.set, Absent, AbsentOrNone, granularityNames]
      exact ⟨_, .int 7, by norm_num⟩
    all_goals simp [NoDetector, Params.ofList, Params.set, LeavesGaps, AbsentOrNone, Absent]
  · refine C117_too_long demoEnv_WF demoEnv_total ?_ ?_ (.inr ⟨"secondly", by simp [Params.ofList, Params.set], by decide⟩)
      (.inl ⟨by simp [Params.ofList, Params.set], rfl⟩) lateRows_validated (.inl rfl) (by decide) (.inl ?_) (v := .int 7) ?_
      (.int 7) (by decide) (by decide) (n := 14) (.inl ⟨?_, by decide⟩) (by decide)
    · rw [admissible_iff]
      simp [checks, Params.ofList, Params.set, Absent, AbsentOrNone, granularityNames, fillNames]
      exact ⟨_, .int 7, by norm_num⟩
    all_goals simp [NoDetector, Params.ofList, Params.set, LeavesGaps, AbsentOrNone]

/-- `C117_collision`: two timestamps of one day are the same month -/
example : (predict demoEnv demoWild entireDetector (.frame true true
      (demoSeries.zipIdx.map fun x => (.int (if x.2 = 13 then 12 * 2592000 + 3600 else x.2 * 2592000), .int x.1)))
      (Params.ofList [("granularity", .str "monthly")])).outcome = .error .valueError := by
  refine C117_collision (vs := demoSeries.map fun i : Int => .fin i) (idx := [0, 1, 2, 3, 4, 5, 6, 7, 8, 9, 10, 11, 12, 12]) ?_ ?_
    (.inr ⟨"monthly", by simp [Params.ofList, Params.set], show Granularity.ofName "monthly" = some .monthly by decide⟩)
    (.inl ⟨by simp [Params.ofList, Params.set], rfl⟩) ?_ (.inl rfl) (by decide)
  · rw [admissible_iff]
    simp [checks, Params.ofList, Params.set, Absent, AbsentOrNone, granularityNames]
  · simp [NoDetector, Params.ofList, Params.set]
  · refine ⟨⟨by decide, by decide, by decide +kernel, by decide +kernel, by decide +kernel, by decide +kernel⟩, ?_, by simp⟩
    intro _
    let l : List Stamp := (List.range 14).map fun (k : Nat) => demoStamp (if k = 13 then 12 * 2592000 + 3600 else k * 2592000)
    exact ⟨rfl, l.map some, l, by decide +kernel, by decide +kernel, by decide +kernel, by decide +kernel⟩

/-! ### the limit on the ratio is needed -/

/-- a failure other than that of the demonstration oracle does not depend on the oracle -/
theorem predict_wild {E : Env} {d : Detector} {data : DataArg} {params : Params} {e : PyErr} (he : e ≠ .exception)
    (h : (predict E demoWild d data params).outcome = .error e) (W : Wild) :
    (predict E W d data params).outcome = .error e := by
  unfold predict at h ⊢
  generalize parseArg E data params = x at h ⊢
  obtain ⟨p, r⟩ := x
  cases r with
  | err _ _ => exact h
  | early _ => exact h
  | ok r =>
    simp only [afterParse] at h ⊢
    cases hm : currentMode (d.update (some r.code)).mode p with
    | none => rw [hm] at h; exact h
    | some m =>
      rw [hm] at h
      dsimp only at h ⊢
      generalize runModel E m r.hasTs r.hasValue r.rows r.mp p = y at h ⊢
      match y with
      | .ok _ => exact h
      | .error (.err _) => exact h
      | .error .unmodelled =>
        simp only [Wild.run, demoWild, Except.error.injEq] at h
        exact absurd h.symm he

/-- critical values of 0, as a large `alpha` makes them -/
def wipedEnv : Env := { demoEnv with esdValue := fun _ _ _ => .fin 0 }

/-- two middling values among the last four points, sixteen extreme ones -/
def wipedRows : List (PyVal × PyVal) :=
  demoRows [100, -100, 90, -90, 80, -80, 70, -70, 60, -60, 50, -50, 40, -40, 1, 2, 30, -30]

/-- **C117**, the limit: with a ratio of 0.49 a valid request with a period that fits twice can fail although all library
calls return. Every value of the trend is flagged or lies in the wiped window, so nothing is left to interpolate. -/
theorem C117_ratio_limit : ∃ (E : Env) (rows : List (PyVal × PyVal)) (params : Params) (vs : List PyFloat) (idx : List Int),
    E.WF ∧ Total E ∧ Admissible params ∧ NoDetector params ∧ GranularityOf params .secondly ∧ IntervalOf params none ∧
    Validated E true true rows .secondly none vs idx ∧ idx.Pairwise (· < ·) ∧ Gapless idx ∧
    params "period" = some (.int 8) ∧ rows.length = 18 ∧ params "maxAnomalyRatio" = some (.float (.fin (49 / 100))) ∧
    ∀ W, (predict E W entireDetector (.frame true true rows) params).outcome = .error .valueError := by
  refine ⟨wipedEnv, wipedRows, Params.ofList [("granularity", .str "secondly"), ("period", .int 8),
    ("maxAnomalyRatio", .float (.fin (49 / 100))), ("alpha", .int 9)],
    ([100, -100, 90, -90, 80, -80, 70, -70, 60, -60, 50, -50, 40, -40, 1, 2, 30, -30] : List Int).map fun i => .fin i,
    (List.range 18).map fun (k : Nat) => (k : Int), { demoEnv_WF with }, { demoEnv_total with }, ?_, ?_,
    (.inr ⟨"secondly", by simp [Params.ofList, Params.set], by decide⟩), (.inl ⟨by simp [Params.ofList, Params.set], rfl⟩),
    ?_, by decide, fun _ => by decide, by simp [Params.ofList, Params.set], by decide, by simp [Params.ofList, Params.set], ?_⟩
  · rw [admissible_iff]
    simp [checks, Params.ofList, Params.set, Absent, AbsentOrNone, granularityNames]
    refine ⟨⟨8, .int 8, by norm_num⟩, .fin (9 : Int), .int (.int 9), by simp⟩
  · simp [NoDetector, Params.ofList, Params.set]
  · refine ⟨⟨by decide, by decide, by decide +kernel, by decide +kernel, by decide +kernel, by decide +kernel⟩, ?_, by simp⟩
    intro _
    exact ⟨rfl, (List.range 18).map fun (k : Nat) => some (demoStamp k), (List.range 18).map fun (k : Nat) => demoStamp k,
      by decide +kernel, by decide +kernel, by decide +kernel, by decide +kernel⟩
  · intro W
    refine predict_wild (e := .valueError) (by decide) ?_ W
    have h : errOf (predict wipedEnv demoWild entireDetector (.frame true true wipedRows) (Params.ofList
        [("granularity", .str "secondly"), ("period", .int 8), ("maxAnomalyRatio", .float (.fin (49 / 100))),
          ("alpha", .int 9)])) = some .valueError := by decide +kernel
    unfold errOf at h
    split at h
    · cases h
    · rename_i e he
      cases h
      exact he

end Verif
