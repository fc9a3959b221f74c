import Verif.Props.Reject

/-!
# Requests with gaps (C28-C30)
-/

namespace Verif

open Spec PM

/-! ### the constructor accepts every ascending position list -/

theorem orderLoop_complete {prev : Int} {t : List Int} (h : (prev :: t).Pairwise (· < ·)) :
    ∃ r, orderLoop prev t = .ok r := by
  induction t generalizing prev with
  | nil => exact ⟨_, rfl⟩
  | cons k t ih =>
    rw [List.pairwise_cons] at h
    obtain ⟨⟨f, m⟩, hr⟩ := ih h.2
    have := h.1 k (by simp)
    rw [orderLoop, if_neg (by omega), hr]
    exact ⟨_, rfl⟩

theorem init_complete {idx : List Int} {vs : List ℚ} (hlen : idx.length = vs.length) (hs : idx.Pairwise (· < ·))
    (h0 : idx.head? = some 0) : ∃ P, FillProc.init idx vs = .ok P := by
  cases idx with
  | nil => simp at h0
  | cons k t =>
    simp only [List.head?_cons, Option.some.injEq] at h0
    subst h0
    obtain ⟨⟨f, m⟩, hr⟩ := orderLoop_complete hs
    unfold FillProc.init
    simp only [hlen, ne_eq, not_true_eq_false, if_false, hr]
    exact ⟨_, rfl⟩

/-- the missing ratio in terms of the request -/
theorem sparse_iff {idx : List Int} {vs : List ℚ} {P : FillProc} (hne : idx ≠ []) (h : FillProc.init idx vs = .ok P) :
    1 / 2 < P.missingRatio ↔ 2 * (idx.length : Int) < idx.getLastD 0 + 1 := by
  obtain ⟨hg, hidx, -⟩ := FillProc.init_good hne h
  have h1 := allCount_last hne h
  have h2 := hg.missing
  have h3 := hg.pos
  have h4 : idx.length = P.indices.length := by rw [hidx, List.length_map]
  have h5 : (0 : ℚ) < P.allCount := by exact_mod_cast h3
  unfold FillProc.missingRatio
  rw [lt_div_iff₀ h5]
  constructor
  · intro h
    have : (P.allCount : ℚ) < 2 * P.missing := by linarith
    have : P.allCount < 2 * P.missing := by exact_mod_cast this
    omega
  · intro h
    have : P.allCount < 2 * P.missing := by omega
    have : (P.allCount : ℚ) < 2 * P.missing := by exact_mod_cast this
    linarith

/-! ### too sparse -/

/-- **C28**, a period above 1 is requested and more than half of the grid positions are missing. The position
hypotheses hold for every accepted series with a fixed-length granularity (C05). -/
theorem C28_sparse_rejected {E : Env} (hE : E.WF) {W : Wild} {d : Detector} {hasTs hasValue : Bool}
    {rows : List (PyVal × PyVal)} {params : Params} (ha : Admissible params) (hd : NoDetector params)
    {g : Granularity} {o : Option Int} {vs : List PyFloat} {idx : List Int} (hg : GranularityOf params g)
    (ho : IntervalOf params o) (hv : Validated E hasTs hasValue rows g o vs idx)
    (hmode : d.mode.isNone = false ∨ ∃ m, params "detect_mode" = some m)
    (hs : idx.Pairwise (· < ·)) (h0 : idx.head? = some 0) {v : PyVal} {i : Int} (hper : params "period" = some v)
    (hi : IsInt v i) (h1 : 1 < i) (hsparse : 2 * (rows.length : Int) < idx.getLastD 0 + 1) :
    (predict E W d (.frame hasTs hasValue rows) params).outcome = .error (.requestError "InvalidSeries") := by
  obtain ⟨p', r, hr, r1, r2, r3, r4, r5, r6, r7, -⟩ := parseArg_complete ha hd hg ho hv
  obtain ⟨-, hP⟩ := parseArg_ok hr
  obtain ⟨hl1, hl2⟩ := validated_len hE hv
  have hne : idx ≠ [] := by
    rintro rfl
    simp at h0
  obtain ⟨m, hm⟩ : ∃ m, currentMode d.mode p' = some m := by
    unfold currentMode
    rcases hmode with h | ⟨m, h⟩
    · rw [h]; exact ⟨_, rfl⟩
    · split
      · rw [hP.frame _ (by decide)]; exact ⟨m, h⟩
      · exact ⟨_, rfl⟩
  obtain ⟨l, hl, rfl⟩ := mapM_finite fun v hv' => (hv.toValuesOk.finite v hv').imp fun _ h => h.1
  obtain ⟨P, hP2⟩ := init_complete (vs := l) (by rw [List.length_map] at hl1; omega) hs h0
  have hM : ∃ M, Model.init E (l.map .fin) r.mp = .ok M ∧ M.fill = P := by
    unfold Model.init
    rw [hl, r1]
    unfold PyVal.ofIntList
    simp only [PyVal.asIntList?_map, hP2]
    exact ⟨_, rfl, rfl⟩
  obtain ⟨M, hM, hMf⟩ := hM
  have hpp : paramPeriod p' = some i.toNat := by
    unfold paramPeriod
    rw [hP.frame _ (by decide), hper]
    simp [isInt_asInt hi]
  have hrun : runModel E m r.hasTs r.hasValue r.rows r.mp p' = .error (.err (.requestError "InvalidSeries")) := by
    unfold runModel
    rw [r5, r7, hv.values]
    simp only [lift, Bind.bind, Except.bind, hM]
    unfold Model.detect
    rw [r4]
    simp only
    unfold Model.select
    rw [hpp]
    simp only [Model.usedPeriod, Bind.bind, Except.bind]
    unfold Model.usedSeries
    rw [if_pos]
    refine ⟨by omega, ?_⟩
    rw [hMf, sparse_iff hne hP2]
    omega
  unfold predict
  have hr : parseArg E (.frame hasTs hasValue rows) params = (p', .ok r) := hr
  rw [hr]
  simp only
  rw [afterParse_outcome (d := d.update (some r.code)) (m := m) hm (by rw [hrun]; exact modelled_err _), hrun]
  rfl

/-- **C28**, no period is requested: such a series is analysed without a period. -/
theorem C28_sparse_unseasonal {E : Env} (hE : E.WF) {W : Wild} {d : Detector} {hasTs hasValue : Bool}
    {rows : List (PyVal × PyVal)} {params : Params} {items : List Item} (hno : params "indices" = none)
    (hf : FiniteFill E (.frame hasTs hasValue rows) params) {m : DetectType} (hm : InMode d params m)
    (h : (predict E W d (.frame hasTs hasValue rows) params).outcome = .ok items) (hv : params "period" = none) :
    ∃ idx, Positions E params hasTs rows idx ∧
      (2 * (rows.length : Int) < idx.getLastD 0 + 1 → ∀ it ∈ items, it.period = 0) := by
  obtain ⟨T, hT⟩ := item_period hE hno hf hm h
  obtain ⟨eT, eV, eR⟩ : hasTs = T.hasTs ∧ hasValue = T.hasValue ∧ rows = T.rows := by
    simpa using T.isFrame
  have hpos := parsed_positions hE T.parsed T.validated
  rw [← eT, ← eR] at hpos
  refine ⟨T.idx, hpos, ?_⟩
  intro hs it hit
  rw [hT it hit]
  have hpi : paramPeriod T.after = none := by
    unfold paramPeriod
    rw [T.parsed.frame _ (by decide), hv]
    rfl
  obtain ⟨-, h2, h3, hne⟩ := T.len hE
  have hsp := (sparse_iff hne T.fillInit).2 (by rw [h3, ← eR]; exact hs)
  rcases T.selected.per with h1 | ⟨-, ⟨-, h1⟩ | ⟨h1, -⟩⟩
  · rw [hpi] at h1; cases h1
  · exact h1
  · exact absurd hsp (not_lt.2 h1)

/-- the hypotheses of `C28_sparse_rejected` for every third second with period 2 -/
example :
    let P := Params.ofList [("granularity", .str "secondly"), ("period", .int 2)]
    let idx : List Int := (List.range 14).map fun (k : Nat) => (3 * k : Int)
    Admissible P ∧ NoDetector P ∧ GranularityOf P .secondly ∧ IntervalOf P none ∧
      Validated demoEnv true true (demoRows demoSeries 3) .secondly none (demoSeries.map fun i => .fin i) idx ∧
      idx.Pairwise (· < ·) ∧ idx.head? = some 0 ∧ 2 * ((demoRows demoSeries 3).length : Int) < idx.getLastD 0 + 1 := by
  refine ⟨?_, ?_, ?_, ?_, ?_, by decide, by decide, by decide⟩
  · rw [admissible_iff]
    simp [checks, Params.ofList, Params.set, Absent, AbsentOrNone, granularityNames]
    exact ⟨_, .int 2, by norm_num⟩
  · simp [NoDetector, Params.ofList, Params.set]
  · right
    exact ⟨"secondly", by simp [Params.ofList, Params.set], by decide⟩
  · left
    simp [Params.ofList, Params.set]
  · refine ⟨⟨by decide, by decide, by decide +kernel, by decide +kernel, by decide +kernel, by decide +kernel⟩, ?_,
      by simp⟩
    intro _
    refine ⟨rfl, (List.range 14).map fun (k : Nat) => some (demoStamp (3 * k)),
      (List.range 14).map fun (k : Nat) => demoStamp (3 * k), by decide +kernel, by decide +kernel, by decide +kernel, by decide +kernel⟩

/-! ### the length cap -/

/-- **C29** (the cap never blocks): for an accepted series with at most half of its positions missing, gaps are filled
whenever there are any. -/
theorem C29_cap_never_blocks {idx : List Int} {vs : List ℚ} {P : FillProc} (hne : idx ≠ [])
    (h : FillProc.init idx vs = .ok P) (hlen : idx.length ≤ 8640)
    (hm : (idx.getLastD 0 + 1 : Int) ≤ 2 * (idx.length : Int)) :
    ∃ n, Gapped (observations idx vs) n ∧ (P.need = true ↔ ∃ p < n, Missing (observations idx vs) p) := by
  obtain ⟨hg, hidx, -⟩ := FillProc.init_good hne h
  have h1 := allCount_last hne h
  have h2 : idx.length = P.indices.length := by rw [hidx, List.length_map]
  refine ⟨P.allCount, by rw [← obs_eq hne h]; exact hg.gapped, ?_⟩
  rw [← obs_eq hne h, hg.need]
  have hsize : P.allCount ≤ 17280 := by omega
  simp only [hsize, and_true]
  have hobs : P.obs.map (·.1) = P.indices := by
    unfold FillProc.obs
    rw [List.map_fst_zip]
    have := hg.len
    omega
  constructor
  · intro hlt
    by_contra hc
    push Not at hc
    have hall : ∀ p < P.allCount, p ∈ P.indices := by
      intro p hp
      have := hc p hp
      unfold Missing at this
      push Not at this
      obtain ⟨v, hv⟩ := this
      rw [← hobs]
      exact List.mem_map_of_mem hv
    have hsub : List.range P.allCount ⊆ P.indices := fun p hp => hall p (List.mem_range.1 hp)
    have := (List.nodup_range (n := P.allCount)).subperm hsub
    have := this.length_le
    rw [List.length_range] at this
    omega
  · rintro ⟨p, hp, hmiss⟩
    by_contra hc
    have hnd : P.indices.Nodup := hg.sorted.imp fun h => Nat.ne_of_lt h
    have hsub : P.indices ⊆ List.range P.allCount := fun k hk => List.mem_range.2 (hg.inside k hk)
    have hsp := hnd.subperm hsub
    have hperm := hsp.perm_of_length_le (by rw [List.length_range]; omega)
    have hmem : p ∈ P.indices := hperm.mem_iff.2 (List.mem_range.2 hp)
    rw [← hobs] at hmem
    obtain ⟨a, ha, rfl⟩ := List.mem_map.1 hmem
    exact hmiss a.2 ha

/-- **C29** for a request: a seasonal analysis with filling runs on one value per grid position. -/
theorem C29_seasonal_series_full {E : Env} (hE : E.WF) {W : Wild} {d : Detector} {data : DataArg} {params : Params}
    {items : List Item} (hno : params "indices" = none) (hf : FiniteFill E data params)
    (h : (predict E W d data params).outcome = .ok items) :
    ∃ T : Trace E d data params items, 1 < T.period → T.M.mode ≠ .no → T.M.mode ≠ .zero → T.M.mode ≠ .notFill →
      ((((T.full.map (·.1)).getD T.M.values).length : Nat) : Int) = T.idx.getLastD 0 + 1 := by
  obtain ⟨T⟩ := predict_trace hE hno hf h
  refine ⟨T, ?_⟩
  intro hp h1 h2 h3
  obtain ⟨-, l2, l3, hne⟩ := T.len hE
  have hlast := allCount_last hne T.fillInit
  obtain ⟨hg, hidx, hvals⟩ := FillProc.init_good hne T.fillInit
  rcases T.selected.fills with ⟨-, hfl⟩ | ⟨hc, -⟩
  · rw [filled_length hE hne T.fillInit hfl]
    have hd := T.selected.dense hp
    have hd : ¬ (2 * (T.idx.length : Int) < T.idx.getLastD 0 + 1) := fun hc => by
      have := (sparse_iff hne T.fillInit).2 hc
      linarith
    have hhi := T.validated.hi
    have l4 : T.idx.length = T.M.fill.indices.length := by rw [hidx, List.length_map]
    have l5 := hg.missing
    split
    · exact hlast
    · rename_i hn
      have hn : ¬ T.M.fill.need = true := fun e => hn ⟨e, h1, h2, h3⟩
      rw [hg.need] at hn
      omega
  · exact absurd (.inl hp) hc

/-! ### the requested imputation -/

/-- **C30**, refuted for `imputeMode='fixed'`: the constant of the request is dropped by the parser, whatever it is. -/
theorem C30_fixed_constant_lost {E : Env} {data : DataArg} {params p' : Params} {r : ParseResult}
    (hm : params "imputeMode" = some (.str "fixed")) (h : (parseArg E data).Returns params p' r) :
    r.mp.fillMode = some .fixed ∧ r.mp.fixed = none := by
  obtain ⟨-, hp⟩ := parseArg_ok h
  have e2 : FillUpMode.ofValue "fixed" = some .fixed := by decide
  rcases hp.fill with ⟨s, a, b⟩ | ⟨a, -⟩ | ⟨s, a, -⟩
  · have e := presentKey_some a
    rw [hm] at e
    cases e
    rcases b with ⟨-, b, -⟩ | ⟨b, -⟩ | ⟨m, b, c, -⟩
    · simpa using b
    · rw [e2] at b; cases b
    · rw [e2] at b
      cases b
      exact absurd rfl c
  · exact absurd hm (absent_presentKey (presentKey_absent a))
  · exact absurd hm (absent_presentKey (presentKey_absent a))

/-- **C30**, refuted for `fillUpMode='zero'`: nothing is filled, the analysis runs on the observed values only. -/
theorem C30_zero_not_applied {E : Env} (hE : E.WF) {W : Wild} {d : Detector} {data : DataArg} {params : Params}
    {items : List Item} (hno : params "indices" = none) (hf : FiniteFill E data params)
    (hi : AbsentOrNone params "imputeMode") (hz : params "fillUpMode" = some (.str "zero"))
    (h : (predict E W d data params).outcome = .ok items) :
    ∃ T : Trace E d data params items, T.full = none ∧
      T.M.run E T.M.values T.ratio T.period (isLatest T.mode) = .ok (T.raw, T.model) := by
  obtain ⟨T⟩ := predict_trace hE hno hf h
  have hmode : T.M.mode = .zero := by
    rw [T.configured.mode]
    have e2 : FillUpMode.ofValue "zero" = some .zero := by decide
    rcases T.parsed.fill with ⟨s, a, b⟩ | ⟨-, a, -⟩ | ⟨s, -, a, b⟩
    · exact absurd (presentKey_some a) (absent_presentKey hi)
    · exact absurd hz (absent_presentKey (presentKey_absent a))
    · have e := presentKey_some a
      rw [hz] at e
      cases e
      rw [e2] at b
      rcases b with ⟨b, -⟩ | ⟨m, b, -, c⟩
      · cases b
      · simp only [Option.some.injEq] at b
        subst b
        simp only [Prod.mk.injEq] at c
        rw [c.1]
        rfl
  have hfull : T.full = none := by
    rcases T.selected.fills with ⟨-, hfl⟩ | ⟨-, hfl⟩
    · rw [hmode] at hfl
      rcases filled_ok hfl with ⟨e, -⟩ | ⟨l, tags, -, e⟩
      · exact e
      · simp [fillUpOnDemand] at e
    · exact hfl
  refine ⟨T, hfull, ?_⟩
  have := T.selected.run
  rw [hfull] at this
  exact this

/-- the constant with which a request is actually filled -/
inductive FillsWith (p : Params) : ℚ → Prop
  | zero (h : p "imputeMode" = some (.str "zero")) : FillsWith p 0
  | fixed {v q} (h1 : AbsentOrNone p "imputeMode") (h2 : p "fillUpMode" = some (.str "fixed"))
      (h3 : p "fixedValue" = some v) (h4 : IsNumber v (.fin q)) : FillsWith p q

/-- **C30**, the part that holds: `imputeMode='zero'` fills with 0 and `fillUpMode='fixed'` with `fixedValue`, in every
gap of a grid of at most 17280 positions. -/
theorem C30_constant {E : Env} (hE : E.WF) {W : Wild} {d : Detector} {data : DataArg} {params : Params}
    {items : List Item} (hno : params "indices" = none) (hf : FiniteFill E data params) {c : ℚ} (hc : FillsWith params c)
    (h : (predict E W d data params).outcome = .ok items) :
    ∃ T : Trace E d data params items, T.M.fill.need = true → ∃ full tags n, T.full = some (full, tags) ∧
      Gapped (observations T.idx T.M.values) n ∧ Completes (observations T.idx T.M.values) n full ∧
      FilledConstant (observations T.idx T.M.values) n c full := by
  obtain ⟨T⟩ := predict_trace hE hno hf h
  refine ⟨T, ?_⟩
  intro hneed
  obtain ⟨-, l2, l3, hne⟩ := T.len hE
  have hmode : T.M.mode = .fixed ∧ T.M.fixed = some (.fin c) := by
    rw [T.configured.mode, T.configured.fixed]
    have hfill := T.parsed.fill
    cases hc with
    | zero hz =>
      have e2 : FillUpMode.ofValue "zero" = some .zero := by decide
      rcases hfill with ⟨s, a, b⟩ | ⟨a, -⟩ | ⟨s, a, -⟩
      · have e := presentKey_some a
        rw [hz] at e
        cases e
        rw [e2] at b
        rcases b with ⟨b, -⟩ | ⟨-, b⟩ | ⟨m, b, -, c, -⟩
        · cases b
        · simp only [Prod.mk.injEq] at b
          rw [b.1, b.2]
          exact ⟨rfl, rfl⟩
        · simp only [Option.some.injEq] at b
          exact absurd b.symm c
      · exact absurd hz (absent_presentKey (presentKey_absent a))
      · exact absurd hz (absent_presentKey (presentKey_absent a))
    | fixed h1 h2 h3 h4 =>
      have e2 : FillUpMode.ofValue "fixed" = some .fixed := by decide
      rcases hfill with ⟨s, a, b⟩ | ⟨-, a, -⟩ | ⟨s, -, a, b⟩
      · exact absurd (presentKey_some a) (absent_presentKey h1)
      · exact absurd h2 (absent_presentKey (presentKey_absent a))
      · have e := presentKey_some a
        rw [h2] at e
        cases e
        rw [e2] at b
        rcases b with ⟨-, v, f, b1, b2, b3⟩ | ⟨m, b, c, -⟩
        · rw [h3] at b1
          cases b1
          rw [isNumber_asNumber h4] at b2
          cases b2
          simp only [Prod.mk.injEq] at b3
          rw [b3.1, b3.2]
          exact ⟨rfl, rfl⟩
        · simp only [Option.some.injEq] at b
          exact absurd b.symm c
  have hfl : T.M.filled E T.M.mode T.period = .ok T.full := by
    rcases T.selected.fills with ⟨-, hfl⟩ | ⟨hn, -⟩
    · exact hfl
    · exact absurd (.inr (.inl hmode.1)) hn
  have e3 : T.M.fixed.bind finite? = some c := by rw [hmode.2]; rfl
  rcases filled_ok hfl with ⟨-, e⟩ | ⟨full, tags, e, hr⟩
  · exfalso
    rw [hmode.1] at e
    simp only [fillUpOnDemand, hneed, if_true] at e
    generalize T.M.fill.fillConstant (T.M.fixed.bind finite?) = x at e
    cases x <;> simp [Except.map] at e
  · obtain ⟨n, hg, hl, hk, -⟩ := C25_imputation_keeps_observed (WF.splineLaws hE) hne T.fillInit hr
    obtain ⟨n', hg', -, -, hcst⟩ := C26_imputation_values hne T.fillInit hr
    obtain ⟨full', hfull', hfc⟩ := hcst c hmode.1 e3
    have : full' = full := List.map_injective_iff.2 (Option.some_injective _) hfull'.symm
    subst this
    have := Gapped.unique hg hg'
    subst this
    refine ⟨full', tags, n, e, hg, ⟨by simpa using hl, ?_⟩, hfc⟩
    intro a ha
    have := hk a ha
    rw [List.getElem?_map, Option.map_eq_some_iff] at this
    obtain ⟨x, hx, hxa⟩ := this
    rw [hx]
    exact hxa

/-- the same series with `fillUpMode='zero'` and with `imputeMode='zero'`: every row is answered in both, but the last
one is an anomaly only in the second, where the gaps really are filled -/
example : okFlags (predict demoEnv demoWild entireDetector (.frame true true gapRows)
      (Params.ofList [("granularity", .str "secondly"), ("period", .int 0), ("fillUpMode", .str "zero")])) =
    some ((List.range 14).map fun i => (decide (i = 7), decide (i = 7), false)) := by decide +kernel

example : okFlags (predict demoEnv demoWild entireDetector (.frame true true gapRows)
      (Params.ofList [("granularity", .str "secondly"), ("period", .int 0), ("imputeMode", .str "zero")])) =
    some ((List.range 14).map fun i => (decide (i = 7 ∨ i = 13), decide (i = 7 ∨ i = 13), false)) := by decide +kernel

example : FillsWith (Params.ofList [("granularity", .str "secondly"), ("period", .int 0), ("imputeMode", .str "zero")])
    0 := .zero (by simp [Params.ofList, Params.set])

end Verif
