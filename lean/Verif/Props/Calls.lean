import Verif.Uni.Complete
import Verif.Uni.Blind
import Verif.Props.Periods

/-!
# Requests and call histories (C07-C11, C24, C66, C67)
-/

namespace Verif

open Spec PM

/-! ### the gate -/

theorem ofName_names {s : String} {g : Granularity} (h : Granularity.ofName s = some g) : s ∈ granularityNames := by
  rw [← ofName_mem h]
  cases g <;> decide

theorem ofValue_names {s : String} {m : FillUpMode} (h : FillUpMode.ofValue s = some m) : s ∈ fillNames := by
  unfold FillUpMode.ofValue at h
  repeat' split at h
  all_goals first
    | cases h; done
    | (subst_vars; decide)

theorem presentKey_absent {p : Params} {k : String} (h : presentKey p k = none) : AbsentOrNone p k := by
  unfold presentKey at h
  split at h
  · rename_i e; exact .inr e
  · exact .inl h

theorem absent_presentKey {p : Params} {k s : String} (h : AbsentOrNone p k) : p k ≠ some (.str s) := by
  rcases h with h | h <;> rw [h] <;> simp

/-- A parsed request lies in the documented domain. -/
theorem parsed_admissible {E : Env} {hasTs hasValue : Bool} {rows : List (PyVal × PyVal)} {p p' : Params}
    {mp : ModelParams} (h : Parsed E hasTs hasValue rows p p' mp) : Admissible p where
  granularity := by
    rcases h.gran with ⟨a, -⟩ | ⟨s, a, b⟩
    · exact .inl a
    · exact .inr ⟨s, ofName_names b, a⟩
  customInterval := by
    rcases h.interval with ⟨a, -⟩ | ⟨v, i, a, b, c, -⟩
    · exact .inl a
    · exact .inr ⟨v, i, a, asInt_isInt b, by omega⟩
  period := by
    rcases h.period with a | ⟨v, i, a, b, c⟩
    · exact .inl a
    · exact .inr ⟨v, i, a, asInt_isInt b, c⟩
  alpha := by
    rcases h.alpha with ⟨a, -⟩ | ⟨v, f, a, b, c, -⟩
    · exact .inl a
    · refine .inr ⟨v, f, a, asNumber_isNumber b, ?_, ?_⟩
      · rintro rfl
        simp [PyFloat.le] at c
      · rintro q rfl
        simpa [PyFloat.le] using c
  maxAnomalyRatio := by
    rcases h.ratio with ⟨a, -⟩ | ⟨f, a, b, c, -⟩
    · exact .inl a
    · refine .inr ⟨f, a, ?_⟩
      cases f with
      | fin q => exact .inr ⟨q, rfl, by simpa [PyFloat.le] using b, by simpa [PyFloat.lt] using c⟩
      | pinf => simp [PyFloat.lt] at c
      | ninf => simp [PyFloat.le] at b
      | nan => exact .inl rfl
  sensitivity := by
    rcases h.sensitivity with ⟨a, -⟩ | ⟨v, i, a, b, c, d, -⟩
    · exact .inl a
    · exact .inr ⟨v, i, a, asInt_isInt b, c, d⟩
  threshold := by
    rcases h.threshold with ⟨a, -⟩ | ⟨f, a, -⟩
    · exact .inl a
    · exact .inr ⟨f, a⟩
  imputeMode := by
    rcases h.fill with ⟨s, a, b⟩ | ⟨a, -⟩ | ⟨s, a, -⟩
    · refine .inr ⟨s, ?_, presentKey_some a⟩
      rcases b with ⟨b, -⟩ | ⟨b, -⟩ | ⟨m, b, -⟩ <;> exact ofValue_names b
    · exact .inl (presentKey_absent a)
    · exact .inl (presentKey_absent a)
  imputeFixedValue := by
    intro hm
    rcases h.fill with ⟨s, a, b⟩ | ⟨a, -⟩ | ⟨s, a, -⟩
    · have e := presentKey_some a
      rw [hm] at e
      cases e
      rcases b with ⟨-, -, v, f, b, c⟩ | ⟨b, -⟩ | ⟨m, b, c, -⟩
      · exact ⟨v, f, b, asNumber_isNumber c⟩
      · exact absurd b (by decide)
      · exact absurd (Option.some.inj (b.symm.trans (by decide : FillUpMode.ofValue "fixed" = some .fixed))) c
    · exact absurd hm (absent_presentKey (presentKey_absent a))
    · exact absurd hm (absent_presentKey (presentKey_absent a))
  fillUpMode := by
    intro hm
    rcases h.fill with ⟨s, a, b⟩ | ⟨-, a, -⟩ | ⟨s, -, a, b⟩
    · exact absurd (presentKey_some a) (absent_presentKey hm)
    · exact .inl (presentKey_absent a)
    · refine .inr ⟨s, ?_, presentKey_some a⟩
      rcases b with ⟨b, -⟩ | ⟨m, b, -⟩ <;> exact ofValue_names b
  fixedValue := by
    intro hm hf
    rcases h.fill with ⟨s, a, b⟩ | ⟨-, a, -⟩ | ⟨s, -, a, b⟩
    · exact absurd (presentKey_some a) (absent_presentKey hm)
    · exact absurd hf (absent_presentKey (presentKey_absent a))
    · have e := presentKey_some a
      rw [hf] at e
      cases e
      rcases b with ⟨-, v, f, b, c, -⟩ | ⟨m, b, c, -⟩
      · exact ⟨v, f, b, asNumber_isNumber c⟩
      · exact absurd (Option.some.inj (b.symm.trans (by decide : FillUpMode.ofValue "fixed" = some .fixed))) c
  boundaryVersion := by
    obtain ⟨b, -, -, ⟨a, -⟩ | ⟨s, a, hs⟩⟩ := h.boundary
    · exact .inl (presentKey_absent a)
    · refine .inr ⟨s, ?_, presentKey_some a⟩
      unfold BoundaryVersion.ofName at hs
      repeat' split at hs
      all_goals first
        | cases hs; done
        | (subst_vars; decide)

/-- **C07** (parameter gates). -/
theorem C07_parameter_gates {E : Env} {W : Wild} {d : Detector} {data : DataArg} {params : Params}
    {items : List Item} (h : (predict E W d data params).outcome = .ok items) : Admissible params := by
  obtain ⟨hasTs, hasValue, rows, mp, p', m, -, hp, -⟩ := predict_ok h
  exact parsed_admissible hp

/-- **C07**: the one non-number the ratio gate lets through, NaN, never leads to a result. -/
theorem C07_ratio_number {E : Env} (hE : E.WF) {W : Wild} {d : Detector} {data : DataArg} {params : Params}
    {items : List Item} (hno : params "indices" = none) (hf : FiniteFill E data params)
    (h : (predict E W d data params).outcome = .ok items) {v : PyVal} (hv : params "maxAnomalyRatio" = some v) :
    ∃ q : ℚ, v = .float (.fin q) ∧ 0 < q ∧ q ≤ 49 / 100 := by
  obtain ⟨T⟩ := predict_trace hE hno hf h
  rcases (parsed_admissible T.parsed).maxAnomalyRatio with ha | ⟨f, ha, hf⟩
  · unfold Absent at ha
    rw [ha] at hv
    cases hv
  · rw [ha] at hv
    cases hv
    rcases hf with rfl | ⟨q, rfl, h1, h2⟩
    · exfalso
      have h1 := T.selected.finite
      rcases T.parsed.ratio with ⟨e, -⟩ | ⟨f, e, -, -, hr⟩
      · rw [ha] at e; cases e
      · rw [ha] at e
        cases e
        have h2 := T.configured.ratio
        rw [hr] at h2
        unfold Model.maxRatio at h1
        rw [h2] at h1
        split at h1 <;> simp at h1
    · exact ⟨q, rfl, h1, h2⟩

/-- **C07**, the converse: a documented request without an explicit detector and with a valid series passes the
gate; the positions of its points end up in the dict. -/
theorem C07_accepts {E : Env} {W : Wild} {d : Detector} {hasTs hasValue : Bool} {rows : List (PyVal × PyVal)}
    {params : Params} (ha : Admissible params) (hd : NoDetector params) {g : Granularity} {o : Option Int}
    {vs : List PyFloat} {idx : List Int} (hg : GranularityOf params g) (ho : IntervalOf params o)
    (hv : Validated E hasTs hasValue rows g o vs idx) :
    (predict E W d (.frame hasTs hasValue rows) params).params "indices" = some (PyVal.ofIntList idx) := by
  obtain ⟨p', r, h1, -, -, -, -, -, -, -, h2⟩ := parseArg_complete ha hd hg ho hv
  unfold predict
  rw [h1]
  simp only
  unfold afterParse
  split
  · exact h2
  · split <;> exact h2

/-- NaN is an accepted value of `alpha`. -/
example : okLen (predict demoEnv demoWild entireDetector demoData (Params.ofList
    [("granularity", .str "secondly"), ("period", .int 0), ("alpha", .float .nan)])) = some 14 := by decide +kernel

/-! ### what a request leaves of the model -/

/-- A parsed request without caller-supplied positions and with a finite fill constant never leaves the model. -/
theorem parsed_modelled {E : Env} (hE : E.WF) {hasTs hasValue : Bool} {rows : List (PyVal × PyVal)} {p p' : Params}
    {mp : ModelParams} (hp : Parsed E hasTs hasValue rows p p' mp) (hno : p "indices" = none)
    (hf : FiniteFill E (.frame hasTs hasValue rows) p)
    (m : PyVal) : Modelled (runModel E m hasTs hasValue rows mp p') := by
  rcases hp.indices with hi | ⟨hi, vs, hvs⟩ | ⟨vs, idx, hval, hi⟩
  · rw [hno] at hi; cases hi
  · have : runModel E m hasTs hasValue rows mp p' = .error (.err .valueError) := by
      obtain ⟨l, hl, -⟩ := mapM_finite fun v hv => (hvs.finite v hv).imp fun _ h => h.1
      unfold runModel
      rw [hvs.values]
      simp [lift, Bind.bind, Except.bind, Model.init, hl, hi]
    rw [this]
    exact modelled_err _
  · exact run_modelled hE hp hf hval hi m

/-- the outcome of a run that stays in the model -/
def Stop.outcome : Except Stop (List Item) → Except PyErr (List Item)
  | .ok items => .ok items
  | .error (.err e) => .error e
  | .error .unmodelled => .error .exception

theorem afterParse_outcome {E : Env} {W : Wild} {d : Detector} {data : DataArg} {p : Params} {r : ParseResult}
    {m : PyVal} (hm : currentMode d.mode p = some m)
    (hr : Modelled (runModel E m r.hasTs r.hasValue r.rows r.mp p)) :
    (afterParse E W d data p r).outcome = Stop.outcome (runModel E m r.hasTs r.hasValue r.rows r.mp p) := by
  unfold afterParse
  rw [hm]
  simp only
  generalize runModel E m r.hasTs r.hasValue r.rows r.mp p = x at hr ⊢
  match x with
  | .ok _ => rfl
  | .error (.err _) => rfl
  | .error .unmodelled => exact absurd rfl hr

theorem afterParse_params {E : Env} {W : Wild} {d : Detector} {data : DataArg} {p : Params} {r : ParseResult} :
    (afterParse E W d data p r).params = p := by
  unfold afterParse
  split
  · rfl
  · split <;> rfl

theorem afterParse_mode {E : Env} {W : Wild} {d : Detector} {data : DataArg} {p : Params} {r : ParseResult}
    {m : PyVal} (hm : currentMode d.mode p = some m) : (afterParse E W d data p r).detector.mode = m := by
  unfold afterParse
  rw [hm]
  simp only
  split <;> rfl

/-- what a run reads of the dict -/
theorem runModel_congr {E : Env} {m : PyVal} {hasTs hasValue : Bool} {rows : List (PyVal × PyVal)}
    {mp : ModelParams} {p q : Params} (h1 : p "period" = q "period") (h2 : p "sensitivity" = q "sensitivity")
    (h3 : p "boundaryVersion" = q "boundaryVersion") :
    runModel E m hasTs hasValue rows mp p = runModel E m hasTs hasValue rows mp q := by
  unfold runModel paramPeriod paramSens paramBoundary
  rw [h1, h2, h3]

/-- the documented keys -/
def knownKeys : List String :=
  ["granularity", "customInterval", "period", "alpha", "maxAnomalyRatio", "threshold", "needDetectorId",
   "imputeMode", "imputeFixedValue", "fillUpMode", "fixedValue", "needFillUpConfirm", "needSpectrumPeriod",
   "boundaryVersion", "need_trend", "detector", "indices", "sensitivity"]

/-- Two dicts that differ at one key only, which the parser treats alike, give the same outcome, when the mode does not
come from that key. -/
theorem predict_blind {E : Env} {W : Wild} {d : Detector} {data : DataArg} {p q : Params} {k : String}
    {a b : Option PyVal} (hsim : Sim k a b (parseArg E data)) (hoff : Off k a b p q)
    (hk : k ≠ "period" ∧ k ≠ "sensitivity" ∧ k ≠ "boundaryVersion")
    (hmode : k ≠ "detect_mode" ∨ d.mode.isNone = false) :
    (predict E W d data q).outcome = (predict E W d data p).outcome ∧
      ∀ x, x ≠ k → (predict E W d data q).params x = (predict E W d data p).params x := by
  obtain ⟨e1, e2⟩ := hsim _ _ hoff
  unfold predict
  rcases h1 : parseArg E data p with ⟨p1, r1⟩
  rcases h2 : parseArg E data q with ⟨p2, r2⟩
  rw [h1, h2] at e1 e2
  simp only at e1 e2
  subst e1
  cases r1 with
  | err e c => exact ⟨rfl, fun x hx => (e2.same x hx).symm⟩
  | early c => exact ⟨rfl, fun x hx => (e2.same x hx).symm⟩
  | ok r =>
    simp only
    have hmd : currentMode (d.update (some r.code)).mode p2 = currentMode (d.update (some r.code)).mode p1 := by
      show currentMode d.mode p2 = currentMode d.mode p1
      unfold currentMode
      rcases hmode with hm | hm
      · rw [e2.same _ (Ne.symm hm)]
      · rw [hm]; rfl
    have hs1 := e2.same _ hk.1.symm
    have hs2 := e2.same _ hk.2.1.symm
    have hs3 := e2.same _ hk.2.2.symm
    refine ⟨?_, ?_⟩
    · unfold afterParse
      rw [hmd]
      split
      · rfl
      · rename_i m _
        have hw : W.run m r.hasTs r.hasValue r.rows r.mp p2 = W.run m r.hasTs r.hasValue r.rows r.mp p1 := by
          unfold Wild.run paramPeriod paramSens paramBoundary
          rw [hs1, hs2, hs3]
        rw [runModel_congr hs1.symm hs2.symm hs3.symm, hw]
        split <;> rfl
    · intro x hx
      rw [afterParse_params, afterParse_params]
      exact (e2.same x hx).symm

theorem predict_unknown {E : Env} {W : Wild} {d : Detector} {data : DataArg} {params : Params}
    {k : String} (hk : k ∉ knownKeys) (hmode : k ≠ "detect_mode" ∨ d.mode.isNone = false) (v : PyVal) :
    (predict E W d data (params.set k v)).outcome = (predict E W d data params).outcome ∧
      ∀ x, x ≠ k → (predict E W d data (params.set k v)).params x = (predict E W d data params).params x := by
  have hne : ∀ x ∈ knownKeys, k ≠ x := fun x hx e => hk (e ▸ hx)
  have hk' : k ∉ parsedKeys := fun h => by
    simp only [parsedKeys, List.mem_cons, List.not_mem_nil, or_false] at h
    refine hk ?_
    simp only [knownKeys, List.mem_cons, List.not_mem_nil, or_false]
    tauto
  exact predict_blind (sim_parseArg (a := params k) (b := some v) hk' (sim_sensitivity (hne _ (by decide)))
      (sim_fill (hne _ (by decide)) (hne _ (by decide)) (hne _ (by decide)) (hne _ (by decide))) E data)
    ⟨fun x hx => (Params.set_ne _ _ hx).symm, rfl, by simp⟩
    ⟨hne _ (by decide), hne _ (by decide), hne _ (by decide)⟩ hmode

/-- **C67** (unknown keys are ignored): adding a key that is not documented changes neither the outcome nor the
other entries of the dict. -/
theorem C67_unknown_keys {E : Env} {W : Wild} {d : Detector} {data : DataArg} {params : Params}
    {k : String} (hk : k ∉ knownKeys) (hmode : k ≠ "detect_mode") (v : PyVal) :
    (predict E W d data (params.set k v)).outcome = (predict E W d data params).outcome ∧
      ∀ x, x ≠ k → (predict E W d data (params.set k v)).params x = (predict E W d data params).params x :=
  predict_unknown hk (.inl hmode) v

/-- **C30** (`imputeFixedValue` has no influence): in every request one number there gives the same outcome as any
other number. -/
theorem C30_fixed_value_ignored {E : Env} {W : Wild} {d : Detector} {data : DataArg} {params : Params} {v w : PyVal}
    {f g : PyFloat} (hv : IsNumber v f) (hw : IsNumber w g) :
    (predict E W d data (params.set "imputeFixedValue" v)).outcome =
      (predict E W d data (params.set "imputeFixedValue" w)).outcome :=
  (predict_blind (sim_parseArg (by decide) (sim_sensitivity (by decide))
    (sim_fill_values (isNumber_asNumber hw) (isNumber_asNumber hv)) E data) (off_set params _ w v)
    ⟨by decide, by decide, by decide⟩ (.inl (by decide))).1

/-- an answered request of this kind; without a number there it fails -/
example : okLen (predict demoEnv demoWild entireDetector demoData ((Params.ofList [("granularity", .str "secondly"),
      ("period", .int 0), ("imputeMode", .str "fixed")]).set "imputeFixedValue" (.int 5))) = some 14 ∧
    okLen (predict demoEnv demoWild entireDetector demoData ((Params.ofList [("granularity", .str "secondly"),
      ("period", .int 0), ("imputeMode", .str "fixed")]).set "imputeFixedValue" (.str "5"))) = none := by decide +kernel

/-! ### call histories -/

/-- a sequence of calls on one detector object -/
def callAll (E : Env) (W : Wild) (d : Detector) (calls : List (DataArg × Params)) : Detector :=
  calls.foldl (fun d c => (predict E W d c.1 c.2).detector) d

/-- the mode after one call -/
theorem predict_mode {E : Env} {W : Wild} {d : Detector} {data : DataArg} {params : Params} :
    (predict E W d data params).detector.mode = d.mode ∨
      (d.mode.isNone = true ∧ ∃ m, params "detect_mode" = some m ∧
        (predict E W d data params).detector.mode = m) := by
  unfold predict
  split
  · rename_i c _; left; cases c <;> rfl
  · rename_i c _; left; cases c <;> rfl
  · rename_i p' r h
    obtain ⟨-, hp⟩ := parseArg_ok h
    rcases hm : currentMode d.mode p' with _ | m
    · left
      unfold afterParse
      have hm : currentMode (d.update (some r.code)).mode p' = none := hm
      rw [hm]
      rfl
    · rw [afterParse_mode (d := d.update (some r.code)) (m := m) hm]
      unfold currentMode at hm
      split at hm
      · rename_i hn
        right
        refine ⟨hn, m, ?_, rfl⟩
        rw [← hp.frame _ (by decide)]
        exact hm
      · left
        cases hm
        rfl

/-- **C10** (the mode of a detector is fixed): a detector that has a mode keeps it through every history of calls. -/
theorem C10_mode_fixed {E : Env} {W : Wild} {d : Detector} (hd : d.mode.isNone = false)
    (calls : List (DataArg × Params)) : (callAll E W d calls).mode = d.mode := by
  unfold callAll
  induction calls generalizing d with
  | nil => rfl
  | cons c t ih =>
    rw [List.foldl_cons]
    rcases predict_mode (E := E) (W := W) (d := d) (data := c.1) (params := c.2) with h | ⟨h, -⟩
    · rw [ih (by rw [h]; exact hd), h]
    · rw [hd] at h; cases h

/-- **C10**: a detector without a mode takes the mode of the first answered request and keeps it. -/
theorem C10_mode_latched {E : Env} {W : Wild} {d : Detector} (hd : d.mode = .none) {data : DataArg} {params : Params}
    {items : List Item} (h : (predict E W d data params).outcome = .ok items) :
    ∃ m, params "detect_mode" = some m ∧ (predict E W d data params).detector.mode = m ∧
      (m.isNone = false → ∀ calls, (callAll E W d ((data, params) :: calls)).mode = m) := by
  obtain ⟨hasTs, hasValue, rows, mp, p', m, -, hp, hm, hm', -⟩ := predict_ok h
  refine ⟨m, ?_, hm', ?_⟩
  · unfold currentMode at hm
    rw [hd] at hm
    rw [← hp.frame _ (by decide)]
    exact hm
  · intro hn calls
    show (callAll E W (predict E W d data params).detector calls).mode = m
    rw [C10_mode_fixed (by rw [hm']; exact hn), hm']

/-- **C10**: once the detector has a mode, `detect_mode` in the request is ignored. -/
theorem C10_request_mode_ignored {E : Env} {W : Wild} {d : Detector} (hd : d.mode.isNone = false)
    {data : DataArg} {params : Params} (v : PyVal) :
    (predict E W d data (params.set "detect_mode" v)).outcome = (predict E W d data params).outcome :=
  (predict_unknown (by decide) (.inr hd) v).1

/-- a call reads nothing but the mode of the detector -/
theorem predict_detector {E : Env} {W : Wild} {d d' : Detector} (h : d.mode = d'.mode) (data : DataArg)
    (params : Params) : (predict E W d data params).outcome = (predict E W d' data params).outcome ∧
      (predict E W d data params).params = (predict E W d' data params).params := by
  unfold predict
  split
  · exact ⟨rfl, rfl⟩
  · exact ⟨rfl, rfl⟩
  · rename_i p' r _
    unfold afterParse
    have h1 : (d.update (some r.code)).mode = (d'.update (some r.code)).mode := h
    rw [h1]
    split
    · exact ⟨rfl, rfl⟩
    · split <;> exact ⟨rfl, rfl⟩

/-- **C11** (calls do not influence each other): after any history a call has the outcome it has on a fresh detector
with the mode in effect; for a detector built with a mode that is the mode it was built with. -/
theorem C11_history_free {E : Env} {W : Wild} (d : Detector) (calls : List (DataArg × Params)) (data : DataArg)
    (params : Params) :
    (predict E W (callAll E W d calls) data params).outcome =
        (predict E W (Detector.new (callAll E W d calls).mode) data params).outcome ∧
      (d.mode.isNone = false → (predict E W (callAll E W d calls) data params).outcome =
        (predict E W (Detector.new d.mode) data params).outcome) := by
  refine ⟨(predict_detector (d := callAll E W d calls) (d' := Detector.new (callAll E W d calls).mode) rfl data
    params).1, fun hd => ?_⟩
  exact (predict_detector (d' := Detector.new d.mode) (C10_mode_fixed hd calls) data params).1

/-- a history with a failed call in front -/
example : okLen (predict demoEnv demoWild
    (callAll demoEnv demoWild entireDetector [(.none, Params.ofList []), (demoData, Params.ofList [("period", .str "x")])])
    demoData (Params.ofList [("granularity", .str "secondly"), ("period", .int 0)])) = some 14 := by decide +kernel

/-- the latched mode beats the one of a later request -/
example : okLen (predict demoEnv demoWild
    (callAll demoEnv demoWild (Detector.new .none) [(demoData, Params.ofList [("period", .int 0), ("detect_mode", .dtype .LATEST)])])
    demoData (Params.ofList [("period", .int 0), ("detect_mode", .dtype .ENTIRE)])) = some 1 := by decide +kernel

/-! ### using a dict again -/

/-- after parsing started with an accepted granularity the dict holds an enum member under that key -/
theorem parseArg_granularity {E : Env} {hasTs hasValue : Bool} {rows : List (PyVal × PyVal)} {p : Params}
    (hne : rows.length ≠ 0)
    (hg : Absent p "granularity" ∨ ∃ s ∈ granularityNames, p "granularity" = some (.str s)) :
    ∃ g, (parseArg E (.frame hasTs hasValue rows) p).1 "granularity" = some (.gran g) := by
  obtain ⟨g, h1⟩ := parseGranularity_complete hg
  refine ⟨g, ?_⟩
  unfold parseArg
  simp only [hne, if_false]
  rw [run_bind h1]
  have k1 : ("granularity" : String) ≠ "customInterval" := by decide
  have hs := sim_bind (k := "granularity") (a := some (.gran g)) (b := some (.gran g))
    (sim_interval (by decide)) fun (interval : Option Int) => sim_bind (sim_period (by decide)) fun (_ : Unit) =>
    sim_bind (sim_alpha (by decide)) fun (alpha : Option PyFloat) => sim_bind (sim_ratio (by decide)) fun (ratio : Option PyFloat) =>
    sim_bind (sim_sensitivity (by decide)) fun (_ : Unit) =>
    sim_bind (sim_threshold (by decide)) fun (threshold : Option PyFloat) =>
    sim_bind (sim_default (j := "needDetectorId") (by decide)) fun (_ : Bool) =>
    sim_bind (sim_fill (by decide) (by decide) (by decide) (by decide)) fun (fill : Option FillUpMode × Option PyFloat) =>
    sim_bind (sim_default (j := "needFillUpConfirm") (by decide)) fun (_ : Bool) =>
    sim_bind (sim_default (j := "needSpectrumPeriod") (by decide)) fun (spec : Bool) =>
    sim_bind (sim_boundary (by decide) (by decide)) fun (bv : BoundaryVersion) =>
    sim_bind (sim_detector (by decide)) fun (det : Option (List (String × PyVal))) =>
    sim_bind (sim_indices (by decide) (by decide) E hasTs hasValue rows g interval) fun (idx : PyVal × Option String) =>
    sim_pure (ParseResult.mk hasTs hasValue rows
      { granularity := g, interval := interval, alpha := alpha, ratio := ratio
        threshold := threshold, fillMode := fill.1, fixed := fill.2, needSpectrum := spec
        needTrend := decide (bv ≠ .V1), detector := det, indices := idx.1 } idx.2)
  exact (hs (p.set "granularity" (.gran g)) (p.set "granularity" (.gran g)) ⟨fun _ _ => rfl, by simp, by simp⟩).2.left

theorem predict_params {E : Env} {W : Wild} {d : Detector} {data : DataArg} {params : Params} :
    (predict E W d data params).params = (parseArg E data params).1 := by
  unfold predict
  split
  · rename_i h; rw [h]
  · rename_i h; rw [h]
  · rename_i p' r h
    rw [h, afterParse_params]

/-- a dict that holds an enum member as granularity is rejected with every data argument -/
theorem gran_rejected {E : Env} {W : Wild} {d : Detector} {data : DataArg} {params : Params} {g : Granularity}
    (h : params "granularity" = some (.gran g)) :
    (predict E W d data params).outcome = .error .typeError ∨
      (data = .notFrame false ∧ (predict E W d data params).outcome = .error .attributeError) := by
  have key : ∀ {α} (f : Granularity → PM α), (parseGranularity >>= f) params =
      (params, .early (some (some "InvalidGranularity"))) := by
    intro α f
    show PM.bind parseGranularity f params = _
    have : parseGranularity params = (params, .early (some (some "InvalidGranularity"))) := by
      show (match params "granularity" with
        | none => (do PM.set "granularity" (.gran .none); Pure.pure .none)
        | some (.str s) =>
          match Granularity.ofName s with
          | some g => (do PM.set "granularity" (.gran g); Pure.pure g)
          | none => PM.early "InvalidGranularity"
        | some v => if v.hashable then PM.early "InvalidGranularity" else PM.throw .typeError : PM Granularity) params = _
      rw [h]
      rfl
    unfold PM.bind
    rw [this]
  unfold predict parseArg
  cases data with
  | none => left; rfl
  | notFrame b =>
    cases b
    · right; exact ⟨rfl, rfl⟩
    · left; rfl
  | frame hasTs hasValue rows =>
    left
    simp only
    by_cases hne : rows.length = 0
    · simp only [hne, if_true]
      rfl
    · simp only [hne, if_false]
      rw [key]

/-- **C09**, refuted: a params dict cannot be used twice. After a call with a nonempty frame and an acceptable
granularity (in particular after every answered call) each further call with the same dict, on any detector and any
data, raises. -/
theorem C09_second_call_fails {E E' : Env} {W W' : Wild} {d d' : Detector} {hasTs hasValue : Bool}
    {rows : List (PyVal × PyVal)} {params : Params} (hne : rows ≠ [])
    (hg : Absent params "granularity" ∨ ∃ s ∈ granularityNames, params "granularity" = some (.str s))
    (data' : DataArg) :
    (predict E' W' d' data' (predict E W d (.frame hasTs hasValue rows) params).params).outcome = .error .typeError ∨
      (data' = .notFrame false ∧
        (predict E' W' d' data' (predict E W d (.frame hasTs hasValue rows) params).params).outcome =
          .error .attributeError) := by
  rw [predict_params]
  obtain ⟨g, h⟩ := parseArg_granularity (E := E) (hasTs := hasTs) (hasValue := hasValue) (rows := rows)
    (by simpa using hne) hg
  exact gran_rejected h

/-- **C09**, refuted: after an answered call the dict is spoilt. -/
theorem C09_answered_then_fails {E E' : Env} {W W' : Wild} {d d' : Detector} {data data' : DataArg} {params : Params}
    {items items' : List Item} (h : (predict E W d data params).outcome = .ok items) :
    (predict E' W' d' data' (predict E W d data params).params).outcome ≠ .ok items' := by
  obtain ⟨hasTs, hasValue, rows, mp, p', m, rfl, hp, -⟩ := predict_ok h
  have hne : rows ≠ [] := by simpa using hp.nonempty
  rcases C09_second_call_fails (E := E) (E' := E') (W := W) (W' := W') (d := d) (d' := d') (hasTs := hasTs)
    (hasValue := hasValue) hne (parsed_admissible hp).granularity data' with h1 | ⟨-, h1⟩ <;> rw [h1] <;> simp

/-- ... although a fresh copy of the dict is answered -/
example :
    let P := Params.ofList [("granularity", .str "secondly"), ("period", .int 0)]
    okLen (predict demoEnv demoWild entireDetector demoData P) = some 14 ∧
      errOf (predict demoEnv demoWild entireDetector demoData
        (predict demoEnv demoWild entireDetector demoData P).params) = some .typeError := by decide +kernel

/-! ### explicit detectors -/

/-- **C24**, refuted: a request that names a detector is answered only if the name is exactly `"hbos"` and the
histogram of the values could not be computed; then the named detector is not used either. -/
theorem C24_explicit_detector_fails {E : Env} (hE : E.WF) {W : Wild} {d : Detector} {data : DataArg} {params : Params}
    {items : List Item} (hno : params "indices" = none) (hf : FiniteFill E data params)
    (h : (predict E W d data params).outcome = .ok items) {det : List (String × PyVal)}
    (hdet : params "detector" = some (.dict det)) :
    Params.ofList det "name" = some (.str "hbos") ∧ ∃ hasTs hasValue rows, data = .frame hasTs hasValue rows ∧
      ∃ vs : List ℚ, cellValues E hasValue rows = .ok (vs.map .fin) ∧ E.histMajority vs = none := by
  obtain ⟨hasTs, hasValue, rows, mp, p', m, hdata, hp, -, -, -, hr⟩ := predict_ok h
  rw [hdata] at hf
  have hr : runModel E m hasTs hasValue rows mp p' = .ok items := by
    rcases hr with hr | ⟨hr, -⟩
    · exact hr
    · exact absurd hr (parsed_modelled hE hp hno hf m)
  obtain ⟨vs, M, rs, per, model, hvs, hM, hd, -⟩ := runModel_ok hr
  rcases hp.detector with ⟨-, hn⟩ | ⟨d', s, q, h1, h2, h3, -, h5⟩
  · exact absurd hdet (hn det)
  · rw [hdet] at h1
    cases h1
    have hc := (modelInit_ok hM).majority
    rw [h2] at hd
    unfold Model.detect at hd
    simp only [Params.has, h3, h5, Option.isSome_some, Bool.and_self, if_true] at hd
    by_cases hs : s = "hbos"
    · subst hs
      refine ⟨h3, hasTs, hasValue, rows, hdata, M.values, by rw [hvs, (modelInit_ok hM).values], ?_⟩
      by_contra hne
      obtain ⟨x, hx⟩ := Option.ne_none_iff_exists'.1 hne
      rw [hx] at hc
      have := hE.hist_pos _ _ hx
      simp only [Option.getD_some] at hc
      rw [if_neg (by rw [hc]; linarith)] at hd
      cases hd
    · exfalso
      split at hd
      · cases hd
      · rename_i hx
        split at hx
        · rename_i he
          simp only [Option.some.injEq, PyVal.str.injEq] at he
          exact hs he
        · cases hx

/-- each of the four supported names is refused on a series that is answered without it -/
example : ∀ s ∈ ["spectral_residual", "hbos", "seasonal_series", "dynamic_threshold"],
    errOf (predict demoEnv demoWild entireDetector demoData (Params.ofList [("period", .int 0), ("detector",
      .dict [("name", .str s), ("parameters", .dict [])])])) = some .typeError := by decide +kernel

/-! ### caller-supplied positions -/

/-- **C66**: with the undocumented key `indices` a frame that fails validation is answered nevertheless. -/
theorem C66_indices_bypass : ∃ (E : Env) (W : Wild) (d : Detector) (rows : List (PyVal × PyVal)) (params : Params)
    (items : List Item), E.WF ∧ rows.length < 12 ∧
      (predict E W d (.frame true true rows) params).outcome = .ok items ∧
      (predict E W d (.frame true true rows) params).detector.errorCode = some (some "InvalidSeries") := by
  have key : okLen (predict demoEnv demoWild entireDetector (.frame true true (demoRows [1, 2, 9]))
      (Params.ofList [("period", .int 0), ("indices", PyVal.ofIntList [0, 1, 2])])) = some 3 ∧
      (predict demoEnv demoWild entireDetector (.frame true true (demoRows [1, 2, 9]))
      (Params.ofList [("period", .int 0), ("indices", PyVal.ofIntList [0, 1, 2])])).detector.errorCode =
        some (some "InvalidSeries") := by
    decide +kernel
  unfold okLen at key
  obtain ⟨k1, k2⟩ := key
  split at k1
  · rename_i l hl
    exact ⟨demoEnv, demoWild, entireDetector, demoRows [1, 2, 9], _, l, demoEnv_WF, by decide, hl, k2⟩
  · cases k1

end Verif
