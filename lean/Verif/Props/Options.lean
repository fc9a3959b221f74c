import Verif.Props.Calls

/-!
# Options that ask for more output

`needDetectorId`, `needFillUpConfirm` and `needSpectrumPeriod` are accepted; nothing of what they ask for is in the answer.
-/

namespace Verif

open Spec

/-- two dicts that agree except at `k` -/
def Besides (k : String) (p q : Params) : Prop := ∀ x, x ≠ k → p x = q x

/-- related ends of two bodies -/
inductive ResRel {α β : Type} (R : α → β → Prop) : Res α → Res β → Prop
  | ok {a b} (h : R a b) : ResRel R (.ok a) (.ok b)
  | early (c) : ResRel R (.early c) (.early c)
  | err (e c) : ResRel R (.err e c) (.err e c)

/-- two bodies started on dicts that agree except at `k` end in related ways, with such dicts -/
def SimR {α β : Type} (k : String) (R : α → β → Prop) (x : PM α) (y : PM β) : Prop :=
  ∀ p q, Besides k p q → ResRel R (x p).2 (y q).2 ∧ Besides k (x p).1 (y q).1

theorem simR_of {α : Type} {k : String} {x : PM α} (h : ∀ a b, Sim k a b x) : SimR k Eq x x := by
  intro p q hpq
  obtain ⟨h1, h2⟩ := h (p k) (q k) p q ⟨hpq, rfl, rfl⟩
  refine ⟨?_, h2.same⟩
  rw [h1]
  rcases (x q).2 with a | c | ⟨e, c⟩
  · exact .ok rfl
  · exact .early c
  · exact .err e c

theorem simR_bind {α α' β β' : Type} {k : String} {R : α → α' → Prop} {S : β → β' → Prop} {x : PM α} {y : PM α'}
    {f : α → PM β} {g : α' → PM β'} (hx : SimR k R x y) (hf : ∀ a b, R a b → SimR k S (f a) (g b)) :
    SimR k S (x >>= f) (y >>= g) := by
  intro p q hpq
  obtain ⟨h1, h2⟩ := hx p q hpq
  show ResRel S (PM.bind x f p).2 (PM.bind y g q).2 ∧ Besides k (PM.bind x f p).1 (PM.bind y g q).1
  unfold PM.bind
  rcases e : x p with ⟨p', r⟩
  rcases e' : y q with ⟨q', r'⟩
  rw [e, e'] at h1 h2
  cases h1 with
  | ok h => exact hf _ _ h p' q' h2
  | early c => exact ⟨.early c, h2⟩
  | err x c => exact ⟨.err x c, h2⟩

theorem simR_step {α β β' : Type} {k : String} {S : β → β' → Prop} {x : PM α} {f : α → PM β} {g : α → PM β'}
    (hx : ∀ a b, Sim k a b x) (hf : ∀ a, SimR k S (f a) (g a)) : SimR k S (x >>= f) (x >>= g) :=
  simR_bind (simR_of hx) fun a _ h => h ▸ hf a

/-- an option that is stored back: the flag read depends on it, nothing else -/
theorem simR_flag (k : String) : SimR k (fun _ _ => True) (parseDefaultFalse k) (parseDefaultFalse k) := by
  intro p q hpq
  refine ⟨.ok trivial, fun x hx => ?_⟩
  show p.set k _ x = q.set k _ x
  rw [Params.set_ne _ _ hx, Params.set_ne _ _ hx, hpq x hx]

/-- the parameters with another choice about the spectrum period -/
def ModelParams.searching (mp : ModelParams) (b : Bool) : ModelParams := { mp with needSpectrum := b }

/-- the same parse result up to the request for the spectrum period -/
def SameButSpectrum (r r' : ParseResult) : Prop :=
  r'.hasTs = r.hasTs ∧ r'.hasValue = r.hasValue ∧ r'.rows = r.rows ∧ r'.code = r.code ∧
    ∃ b, r'.mp = r.mp.searching b

theorem parseArg_options {k : String} (hk : k = "needDetectorId" ∨ k = "needFillUpConfirm" ∨ k = "needSpectrumPeriod") (E : Env)
    (data : DataArg) : SimR k (fun r r' => SameButSpectrum r r' ∧ (k ≠ "needSpectrumPeriod" → r' = r))
      (parseArg E data) (parseArg E data) := by
  have k0 : ∀ x ∈ ["granularity", "customInterval", "period", "alpha", "maxAnomalyRatio", "threshold", "sensitivity",
      "imputeMode", "imputeFixedValue", "fillUpMode", "fixedValue", "boundaryVersion", "need_trend", "detector", "indices"], k ≠ x := by
    rcases hk with rfl | rfl | rfl <;> decide
  have early : ∀ {α : Type} {R : α → α → Prop}, SimR k R (PM.earlyNoCode : PM α) PM.earlyNoCode :=
    fun p q h => ⟨.early none, h⟩
  unfold parseArg
  split
  · exact early
  · exact early
  · exact fun p q h => ⟨.err _ _, h⟩
  split
  · exact early
  refine simR_step (fun _ _ => sim_granularity (k0 _ (by decide))) fun g => ?_
  refine simR_step (fun _ _ => sim_interval (k0 _ (by decide))) fun iv => ?_
  refine simR_step (fun _ _ => sim_period (k0 _ (by decide))) fun _ => ?_
  refine simR_step (fun _ _ => sim_alpha (k0 _ (by decide))) fun al => ?_
  refine simR_step (fun _ _ => sim_ratio (k0 _ (by decide))) fun ra => ?_
  refine simR_step (fun _ _ => sim_sensitivity (k0 _ (by decide))) fun _ => ?_
  refine simR_step (fun _ _ => sim_threshold (k0 _ (by decide))) fun th => ?_
  have flag : ∀ j, SimR k (fun a b => k ≠ j → a = b) (parseDefaultFalse j) (parseDefaultFalse j) := by
    intro j
    by_cases hj : k = j
    · subst hj
      intro p q h
      obtain ⟨h1, h2⟩ := simR_flag k p q h
      exact ⟨.ok fun h => absurd rfl h, h2⟩
    · intro p q h
      obtain ⟨h1, h2⟩ := simR_of (fun _ _ => sim_default hj) p q h
      refine ⟨?_, h2⟩
      cases h1 with
      | ok h => exact .ok fun _ => h
  refine simR_bind (flag _) fun _ _ _ => ?_
  refine simR_step (fun _ _ => sim_fill (k0 _ (by decide)) (k0 _ (by decide)) (k0 _ (by decide)) (k0 _ (by decide))) fun fi => ?_
  refine simR_bind (flag _) fun _ _ _ => ?_
  refine simR_bind (flag _) fun sp sp' hsp => ?_
  refine simR_step (fun _ _ => sim_boundary (k0 _ (by decide)) (k0 _ (by decide))) fun bv => ?_
  refine simR_step (fun _ _ => sim_detector (k0 _ (by decide))) fun de => ?_
  refine simR_step (fun _ _ => sim_indices (k0 _ (by decide)) (k0 _ (by decide)) _ _ _ _ _ _) fun ix => ?_
  exact fun p q h => ⟨.ok ⟨⟨rfl, rfl, rfl, rfl, sp', rfl⟩, fun hne => by rw [hsp hne]⟩, h⟩

/-! ### two options without any effect -/

/-- **C118** (`needDetectorId`, `needFillUpConfirm`): requests that differ only there have the same outcome and leave
the same detector; their dicts differ only there. -/
theorem C118_no_effect (E : Env) (W : Wild) (d : Detector) (data : DataArg) {k : String}
    (hk : k = "needDetectorId" ∨ k = "needFillUpConfirm") {p q : Params} (hpq : ∀ x, x ≠ k → p x = q x) :
    (predict E W d data p).outcome = (predict E W d data q).outcome ∧
      (predict E W d data p).detector = (predict E W d data q).detector ∧
      ∀ x, x ≠ k → (predict E W d data p).params x = (predict E W d data q).params x := by
  obtain ⟨h1, h2⟩ := parseArg_options (hk.imp id .inl) E data p q hpq
  have hks : k ≠ "needSpectrumPeriod" := by rcases hk with rfl | rfl <;> decide
  have k0 : ∀ x ∈ ["period", "sensitivity", "boundaryVersion", "detect_mode"], x ≠ k := by
    rcases hk with rfl | rfl <;> decide
  unfold predict
  rcases e1 : parseArg E data p with ⟨p', r⟩
  rcases e2 : parseArg E data q with ⟨q', r'⟩
  rw [e1, e2] at h1 h2
  simp only at h1 h2
  cases h1 with
  | early c => exact ⟨rfl, rfl, h2⟩
  | err e c => exact ⟨rfl, rfl, h2⟩
  | ok h =>
    rename_i r r'
    obtain rfl := h.2 hks
    have hs1 := h2 _ (k0 "period" (by decide))
    have hs2 := h2 _ (k0 "sensitivity" (by decide))
    have hs3 := h2 _ (k0 "boundaryVersion" (by decide))
    have hmd : currentMode (d.update (some r'.code)).mode p' = currentMode (d.update (some r'.code)).mode q' := by
      unfold currentMode
      rw [h2 _ (k0 "detect_mode" (by decide))]
    have hw : ∀ m, W.run m r'.hasTs r'.hasValue r'.rows r'.mp p' = W.run m r'.hasTs r'.hasValue r'.rows r'.mp q' := by
      intro m
      unfold Wild.run paramPeriod paramSens paramBoundary
      rw [hs1, hs2, hs3]
    simp only [afterParse_params]
    refine ⟨?_, ?_, h2⟩
    all_goals
      unfold afterParse
      rw [hmd]
      split
      · rfl
      · rename_i m _
        rw [runModel_congr hs1.symm hs2.symm hs3.symm, hw]
        split <;> rfl

/-! ### the spectrum period -/

/-- the model with another choice about the spectrum period -/
def Model.searching (M : Model) (b : Bool) : Model := { M with needSpectrum := b }

/-- Without the search for the spectrum period a detection step ends alike, except that the search may raise. -/
theorem detect_quiet (E : Env) (M : Model) (det : Option (List (String × PyVal))) (period : Option Nat) (last : Bool) :
    M.detect E det period last = (M.searching false).detect E det period last ∨
      ∃ x s, (M.searching false).detect E det period last = .ok x ∧ M.detect E det period last = .error s := by
  unfold Model.detect
  simp only
  have hm : (M.searching false).majority = M.majority := rfl
  have hs : (M.searching false).select E period last = M.select E period last := rfl
  have hq : ∀ p source rows, (M.searching false).spectrum E p source rows = .ok () := fun _ _ _ => rfl
  rw [hm, hs]
  split
  · exact .inl rfl
  · cases M.select E period last with
    | error s => exact .inl rfl
    | ok x =>
      obtain ⟨rows, p, md, source⟩ := x
      show (do M.spectrum E p source (rows.map clearNear); Pure.pure _ : Except Stop _) =
          (do (M.searching false).spectrum E p source (rows.map clearNear); Pure.pure _ : Except Stop _) ∨ _
      rw [hq]
      cases hsp : M.spectrum E p source (rows.map clearNear) with
      | ok u => exact .inl rfl
      | error s =>
        refine .inr ⟨(rows.map clearNear, p, md), s, ?_, ?_⟩
        · show (do (M.searching false).spectrum E p source (rows.map clearNear); Pure.pure _ : Except Stop _) = _
          rw [hq]
          rfl
        · show (do M.spectrum E p source (rows.map clearNear); Pure.pure _ : Except Stop _) = _
          rw [hsp]
          rfl

/-- Without a period there is no search. -/
theorem detect_unseasonal (E : Env) (M : Model) (det : Option (List (String × PyVal))) (last : Bool) (b : Bool) :
    (M.searching b).detect E det (some 0) last = M.detect E det (some 0) last := by
  unfold Model.detect
  simp only
  have hm : (M.searching b).majority = M.majority := rfl
  have hs : (M.searching b).select E (some 0) last = M.select E (some 0) last := rfl
  have hx : ∀ d, (M.searching b).explicitError d (some 0) = M.explicitError d (some 0) := fun _ => rfl
  have hq : ∀ (M : Model) source rows, M.spectrum E 0 source rows = .ok () := by
    intro M source rows
    unfold Model.spectrum
    cases M.needSpectrum <;> rfl
  rw [hm, hs]
  split
  · rw [hx]
  · cases h : M.select E (some 0) last with
    | error s => rfl
    | ok x =>
      obtain ⟨rows, p, md, source⟩ := x
      have hp : p = 0 := by
        unfold Model.select at h
        obtain ⟨⟨p1, s1⟩, h1, h⟩ := ebind_ok.1 h
        obtain ⟨full, h2, h⟩ := ebind_ok.1 h
        cases h1
        simp only at h
        split at h
        · obtain ⟨y, h3, h⟩ := ebind_ok.1 h
          have := epure_ok.1 h
          simp only [Prod.mk.injEq] at this
          exact this.2.1.symm
        · cases h
      subst hp
      show (do (M.searching b).spectrum E 0 source (rows.map clearNear); Pure.pure _ : Except Stop _) =
        (do M.spectrum E 0 source (rows.map clearNear); Pure.pure _ : Except Stop _)
      rw [hq, hq]

theorem init_searching (E : Env) (vs : List PyFloat) (mp : ModelParams) (b : Bool) :
    Model.init E vs (mp.searching b) = (Model.init E vs mp).map (·.searching b) := by
  unfold Model.init ModelParams.searching
  simp only
  split
  · rfl
  · split
    · split
      · rfl
      · rename_i values _ _ _ _ _ idx _
        cases FillProc.init idx values <;> rfl
    · rfl

theorem runModel_quiet {E : Env} {m : PyVal} {ht hv : Bool} {rows : List (PyVal × PyVal)} {mp : ModelParams} {p : Params}
    {items : List Item} (h : runModel E m ht hv rows mp p = .ok items) :
    runModel E m ht hv rows (mp.searching false) p = .ok items := by
  unfold runModel at h ⊢
  obtain ⟨vs, h1, h⟩ := ebind_ok.1 h
  obtain ⟨M, h2, h⟩ := ebind_ok.1 h
  obtain ⟨x, h3, h⟩ := ebind_ok.1 h
  have h3' : (M.searching false).detect E mp.detector (paramPeriod p) (isLatest m) = .ok x := by
    rcases detect_quiet E M mp.detector (paramPeriod p) (isLatest m) with e | ⟨y, s, -, e⟩
    · rw [← e, h3]
    · rw [h3] at e; cases e
  rw [h1]
  show (Model.init E vs (mp.searching false) >>= _ : Except Stop _) = _
  rw [init_searching, h2]
  show (do
    let x ← (M.searching false).detect E mp.detector (paramPeriod p) (isLatest m)
    lift (finish m (rowStamps ht rows) x.1 x.2.1 x.2.2 (paramSens p) (paramBoundary p) mp.granularity)) = _
  rw [h3']
  exact h

theorem runModel_unseasonal (E : Env) (m : PyVal) (ht hv : Bool) (rows : List (PyVal × PyVal)) (mp : ModelParams) {p : Params}
    (hp : paramPeriod p = some 0) (b : Bool) :
    runModel E m ht hv rows (mp.searching b) p = runModel E m ht hv rows mp p := by
  unfold runModel
  rw [hp]
  cases cellValues E hv rows with
  | error e => rfl
  | ok vs =>
    show (Model.init E vs (mp.searching b) >>= _ : Except Stop _) = (Model.init E vs mp >>= _ : Except Stop _)
    rw [init_searching]
    cases Model.init E vs mp with
    | error s => rfl
    | ok M =>
      show ((M.searching b).detect E mp.detector (some 0) (isLatest m) >>= _ : Except Stop _) =
        (M.detect E mp.detector (some 0) (isLatest m) >>= _ : Except Stop _)
      rw [detect_unseasonal]
      rfl

/-- the request does not ask for the spectrum period -/
def NoSpectrum (p : Params) : Prop :=
  p "needSpectrumPeriod" = none ∨ ∃ v ∈ [PyVal.none, .bool false, .int 0], p "needSpectrumPeriod" = some v

/-- **C118** (`needSpectrumPeriod`): a request that is answered is answered in the same way if the spectrum period is
not asked for. -/
theorem C118_spectrum {E : Env} (hE : E.WF) {W : Wild} {d : Detector} {data : DataArg} {p q : Params}
    (hno : p "indices" = none) (hf : FiniteFill E data p) (hpq : ∀ x, x ≠ "needSpectrumPeriod" → p x = q x)
    (hq : NoSpectrum q) {items : List Item} (h : (predict E W d data p).outcome = .ok items) :
    (predict E W d data q).outcome = .ok items := by
  obtain ⟨p', r, m, h1, h2, h3⟩ := predict_cases h
  obtain ⟨rfl, hp⟩ := parseArg_ok h1
  have hr : runModel E m r.hasTs r.hasValue r.rows r.mp p' = .ok items := by
    rcases h3 with h3 | ⟨h3, -⟩
    · exact h3
    · exact absurd h3 (parsed_modelled hE hp hno hf m)
  obtain ⟨e1, e2⟩ := parseArg_options (.inr (.inr rfl)) E (.frame r.hasTs r.hasValue r.rows) p q hpq
  rw [h1] at e1 e2
  rcases e3 : parseArg E (.frame r.hasTs r.hasValue r.rows) q with ⟨q', x⟩
  rw [e3] at e1 e2
  simp only at e1 e2
  cases e1 with
  | ok h =>
    rename_i r'
    obtain ⟨⟨a1, a2, a3, a4, b, a5⟩, -⟩ := h
    obtain ⟨-, hp'⟩ := parseArg_ok e3
    have hb : r'.mp.needSpectrum = false := by
      rw [hp'.spectrum]
      rcases hq with hq | ⟨v, hv, hq⟩
      · rw [hq]; rfl
      · rw [hq]
        simp only [List.mem_cons, List.not_mem_nil, or_false] at hv
        rcases hv with rfl | rfl | rfl <;> rfl
    have hmp : r'.mp = r.mp.searching false := by
      rw [a5] at hb
      rw [a5, show b = false from hb]
    refine predict_of_run e3 (m := m) ?_ ?_
    · rw [← h2]
      unfold currentMode
      rw [e2 "detect_mode" (by decide)]
    · rw [a1, a2, a3, hmp, ← runModel_congr (e2 "period" (by decide)) (e2 "sensitivity" (by decide)) (e2 "boundaryVersion" (by decide))]
      exact runModel_quiet hr

/-- **C118** (`needSpectrumPeriod` without a period): if the request sets the period to 0, the option has no effect at
all on the outcome. -/
theorem C118_unseasonal {E : Env} (hE : E.WF) (W : Wild) (d : Detector) (data : DataArg) {p q : Params}
    (hno : p "indices" = none) (hf : FiniteFill E data p) (hpq : ∀ x, x ≠ "needSpectrumPeriod" → p x = q x) {v : PyVal}
    (hv : p "period" = some v) (h0 : IsInt v 0) :
    (predict E W d data p).outcome = (predict E W d data q).outcome := by
  obtain ⟨e1, e2⟩ := parseArg_options (.inr (.inr rfl)) E data p q hpq
  unfold predict
  rcases h1 : parseArg E data p with ⟨p', x⟩
  rcases h2 : parseArg E data q with ⟨q', y⟩
  rw [h1, h2] at e1 e2
  simp only at e1 e2
  cases e1 with
  | early c => rfl
  | err e c => rfl
  | ok h =>
    rename_i r r'
    obtain ⟨⟨a1, a2, a3, a4, b, a5⟩, -⟩ := h
    obtain ⟨rfl, hp⟩ := parseArg_ok h1
    have hper : paramPeriod p' = some 0 := by
      unfold paramPeriod
      rw [hp.frame "period" (by decide), hv]
      cases h0 <;> rfl
    simp only
    unfold afterParse
    have hmd : currentMode (d.update (some r'.code)).mode q' = currentMode (d.update (some r.code)).mode p' := by
      show currentMode d.mode q' = currentMode d.mode p'
      unfold currentMode
      rw [e2 "detect_mode" (by decide)]
    rw [hmd]
    cases hm : currentMode (d.update (some r.code)).mode p' with
    | none => rfl
    | some m =>
      simp only
      have hr : runModel E m r'.hasTs r'.hasValue r'.rows r'.mp q' = runModel E m r.hasTs r.hasValue r.rows r.mp p' := by
        rw [a1, a2, a3, a5, ← runModel_congr (e2 "period" (by decide)) (e2 "sensitivity" (by decide))
          (e2 "boundaryVersion" (by decide)), runModel_unseasonal E m _ _ _ _ hper]
      rw [hr]
      have := parsed_modelled hE hp hno hf m
      cases hx : runModel E m r.hasTs r.hasValue r.rows r.mp p' with
      | ok items => rfl
      | error s =>
        cases s with
        | err e => rfl
        | unmodelled => exact absurd hx this

/-! ### what the option can do -/

/-- a library whose trend fit fails unless the period is known -/
def pickyEnv : Env := { demoEnv with fitTrend := fun l p => if p.isSome then demoEnv.fitTrend l p else .error .exception }

theorem pickyEnv_WF : pickyEnv.WF :=
  { demoEnv_WF with
    trend_len := by
      intro l p r h
      unfold pickyEnv at h
      simp only at h
      split at h
      · exact demoEnv_WF.trend_len l p r h
      · cases h }

/-- a request with a period, with and without the option -/
def searchParams (b : Bool) : Params :=
  Params.ofList [("granularity", .str "secondly"), ("period", .int 3), ("needSpectrumPeriod", .bool b)]

/-- **C118** (what `needSpectrumPeriod` can change): a request can fail because of it. The period that is searched for is
not in the answer. -/
theorem C118_spectrum_raises : ∃ (E : Env) (rows : List (PyVal × PyVal)), E.WF ∧
    okLen (predict E demoWild entireDetector (.frame true true rows) (searchParams false)) = some 14 ∧
    errOf (predict E demoWild entireDetector (.frame true true rows) (searchParams true)) = some .exception := by
  refine ⟨pickyEnv, demoRows demoSeries, pickyEnv_WF, ?_, ?_⟩
  · decide +kernel
  · decide +kernel

/-- four weeks of daily values, one of them an anomaly -/
def weeklySeries : List Int := [0, 1, 2, 3, 4, 5, 6, 0, 1, 2, 3, 4, 5, 6, 0, 1, 2, 3, 4, 5, 6, 0, 1, 2, 90, 4, 5, 6]

/-- a daily request without a period, with and without the option -/
def weeklyParams (b : Bool) : Params := Params.ofList [("granularity", .str "daily"), ("needSpectrumPeriod", .bool b)]

/-- **C118** (also when no period is given): the search is made, and can raise, when the period was found among the usual periods of the granularity. -/
theorem C118_found_raises : ∃ (E : Env) (rows : List (PyVal × PyVal)), E.WF ∧
    okLen (predict E demoWild entireDetector (.frame true true rows) (weeklyParams false)) = some 28 ∧
    errOf (predict E demoWild entireDetector (.frame true true rows) (weeklyParams true)) = some .exception := by
  refine ⟨pickyEnv, demoRows weeklySeries 86400, pickyEnv_WF, ?_, ?_⟩
  · decide +kernel
  · decide +kernel

/-- `C118_spectrum`: a request with the option that is answered -/
example : okLen (predict demoEnv demoWild entireDetector demoData (searchParams true)) = some 14 := by decide +kernel

/-- `C118_unseasonal`: the search is not made although it would raise -/
example : okLen (predict pickyEnv demoWild entireDetector demoData (Params.ofList [("granularity", .str "secondly"),
    ("period", .int 0), ("needSpectrumPeriod", .bool true)])) = some 14 := by decide +kernel

end Verif
