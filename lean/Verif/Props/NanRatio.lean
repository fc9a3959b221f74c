import Verif.Props.Calls
import Verif.Uni.Blind

/-!
# A NaN as `maxAnomalyRatio` (C116)
-/

namespace Verif

open Spec

/-- results of two parser steps on dicts that differ at `k` only -/
def Rel {α β} (k : String) (a b : Option PyVal) (R : α → β → Prop) (x : PM α) (y : PM β) : Prop :=
  ∀ p p', Off k a b p p' → ∀ q c, x p = (q, .ok c) → ∃ q' c', y p' = (q', .ok c') ∧ R c c' ∧ Off k a b q q'

variable {k : String} {a b : Option PyVal}

theorem Sim.rel {α} {x : PM α} (h : Sim k a b x) : Rel k a b (· = ·) x x := by
  intro p p' ho q c hx
  obtain ⟨h1, h2⟩ := h p p' ho
  rw [hx] at h1 h2
  exact ⟨(x p').1, c, by rw [Prod.ext_iff]; exact ⟨rfl, h1.symm⟩, rfl, h2⟩

theorem Rel.bind {α β γ δ} {R : α → β → Prop} {S : γ → δ → Prop} {x : PM α} {y : PM β} {f : α → PM γ} {g : β → PM δ}
    (hx : Rel k a b R x y) (hf : ∀ c d, R c d → Rel k a b S (f c) (g d)) : Rel k a b S (x >>= f) (y >>= g) := by
  intro p p' ho q c h
  have h : PM.bind x f p = (q, .ok c) := h
  unfold PM.bind at h
  rcases e : x p with ⟨q1, r⟩
  rw [e] at h
  cases r with
  | early c => simp at h
  | err e c => simp at h
  | ok c1 =>
    obtain ⟨q1', c1', h1, h2, h3⟩ := hx p p' ho _ _ e
    obtain ⟨q', c', h4, h5, h6⟩ := hf _ _ h2 _ _ h3 _ _ h
    refine ⟨q', c', ?_, h5, h6⟩
    show PM.bind y g p' = _
    unfold PM.bind
    rw [h1]
    exact h4

theorem Rel.sim {α γ δ} {S : γ → δ → Prop} {x : PM α} {f : α → PM γ} {g : α → PM δ}
    (hx : Sim k a b x) (hf : ∀ c, Rel k a b S (f c) (g c)) : Rel k a b S (x >>= f) (x >>= g) :=
  hx.rel.bind fun c _ h => h ▸ hf c

theorem rel_pure {α β} {R : α → β → Prop} {c : α} {d : β} (h : R c d) :
    Rel k a b R (Pure.pure c : PM α) (Pure.pure d : PM β) := by
  intro p p' ho q c' e
  cases e
  exact ⟨p', d, rfl, h, ho⟩

/-- two parse results that differ in the ratio only -/
def UpToRatio (r r' : ParseResult) : Prop :=
  r' = { r with mp := { r.mp with ratio := r'.mp.ratio } } ∧ r'.mp.ratio = some .nan

theorem rel_ratio (a : Option PyVal) :
    Rel "maxAnomalyRatio" a (some (.float .nan)) (fun _ c => c = some PyFloat.nan) parseRatio parseRatio := by
  intro p p' ho q c h
  obtain ⟨rfl, -⟩ := parseRatio_ok h
  refine ⟨p', some .nan, ?_, rfl, ho⟩
  show (match p' "maxAnomalyRatio" with
    | none => Pure.pure none
    | some v => match v.asFloat? with
      | some f => if f.le (.fin 0) || (PyFloat.fin (49 / 100)).lt f then PM.early "InvalidModelArgument" else Pure.pure (some f)
      | none => PM.early "InvalidModelArgument" : PM (Option PyFloat)) p' = _
  rw [ho.right]
  rfl

theorem rel_parseArg (a : Option PyVal) (E : Env) (data : DataArg) :
    Rel "maxAnomalyRatio" a (some (.float .nan)) UpToRatio (parseArg E data) (parseArg E data) := by
  unfold parseArg
  split
  · intro p p' ho q c h; cases h
  · intro p p' ho q c h; cases h
  · intro p p' ho q c h; cases h
  split
  · intro p p' ho q c h; cases h
  refine .sim (sim_granularity (by decide)) fun _ => .sim (sim_interval (by decide)) fun _ =>
    .sim (sim_period (by decide)) fun _ => .sim (sim_alpha (by decide)) fun _ => .bind (rel_ratio a) fun _ _ e => ?_
  subst e
  refine .sim (sim_sensitivity (by decide)) fun _ =>
    .sim (sim_threshold (by decide)) fun _ => .sim (sim_default (by decide)) fun _ =>
    .sim (sim_fill (by decide) (by decide) (by decide) (by decide)) fun _ => .sim (sim_default (by decide)) fun _ =>
    .sim (sim_default (by decide)) fun _ => .sim (sim_boundary (by decide) (by decide)) fun _ =>
    .sim (sim_detector (by decide)) fun _ => .sim (sim_indices (by decide) (by decide) _ _ _ _ _ _) fun _ =>
    rel_pure ⟨rfl, rfl⟩

/-- an answer is computed by the modelled code -/
theorem predict_run {E : Env} (hE : E.WF) {W : Wild} {d : Detector} {data : DataArg} {params : Params}
    {items : List Item} (hno : params "indices" = none) (hf : FiniteFill E data params)
    (h : (predict E W d data params).outcome = .ok items) :
    ∃ p' r m, parseArg E data params = (p', .ok r) ∧ currentMode d.mode p' = some m ∧
      runModel E m r.hasTs r.hasValue r.rows r.mp p' = .ok items := by
  obtain ⟨p', r, m, hpa, hm, hr⟩ := predict_cases h
  refine ⟨p', r, m, hpa, hm, ?_⟩
  obtain ⟨rfl, hp⟩ := parseArg_ok hpa
  rcases hp.indices with hi | ⟨hi, vs, hvs⟩ | ⟨vs, idx, hval, hi⟩
  · rw [hno] at hi; cases hi
  · exfalso
    have : runModel E m r.hasTs r.hasValue r.rows r.mp p' = .error (.err .valueError) := by
      obtain ⟨l, hl, -⟩ := mapM_finite fun v hv => (hvs.finite v hv).imp fun _ h => h.1
      unfold runModel
      rw [hvs.values]
      simp [lift, Bind.bind, Except.bind, Model.init, hl, hi]
    rw [this] at hr
    simp at hr
  · rcases hr with hr | ⟨hr, -⟩
    · exact hr
    · exact absurd hr (run_modelled hE hp hf hval hi m)

theorem runNaN_of_run {E : Env} {M : Model} {series : List ℚ} {ratio : ℚ} {p : Nat} {last : Bool} {rows : List Row}
    {model : ModelType} (h : M.run E series ratio p last = .ok (rows, model)) :
    M.runNaN E series p last = .valueError := by
  unfold Model.run at h
  unfold Model.runNaN
  split at h
  · rename_i hp
    rw [if_pos hp]
    unfold tsDetection at h
    dsimp only at h
    split at h
    · cases h
    split at h
    · cases h
    rename_i h1
    split at h
    · cases h
    rename_i h2
    obtain ⟨d, hd, -⟩ := ebind_ok.1 h
    rw [if_neg h1, if_neg h2, hd]
  · rename_i hp
    rw [if_neg hp]
    split at h
    · rename_i hs
      rw [if_pos hs]
    · rename_i hs
      obtain ⟨t, ht, -⟩ := ebind_ok.1 h
      rw [if_neg hs, ht]

theorem select_nan {E : Env} {M : Model} {asked : Option Nat} {last : Bool} {x : List Row × Nat × ModelType × Option Nat}
    (h : M.select E asked last = .ok x) :
    ({ M with ratio := .nan } : Model).select E asked last = .error (.err .valueError) := by
  unfold Model.select at h
  obtain ⟨⟨q, src⟩, h1, h⟩ := ebind_ok.1 h
  obtain ⟨full, h2, h⟩ := ebind_ok.1 h
  unfold Model.select
  have e1 : ({ M with ratio := .nan } : Model).usedPeriod E asked = .ok (q, src) := h1
  have e2 : ({ M with ratio := .nan } : Model).usedSeries E q = .ok full := h2
  have e3 : ({ M with ratio := .nan } : Model).maxRatio last = .nan := by
    unfold Model.maxRatio
    split <;> rfl
  rw [e1]
  simp only [Bind.bind, Except.bind]
  rw [e2]
  simp only [e3]
  split at h
  · rename_i ratio hr
    obtain ⟨⟨rows0, md⟩, hrun, -⟩ := ebind_ok.1 h
    have := runNaN_of_run (lift_ok.1 hrun)
    have : ({ M with ratio := .nan } : Model).runNaN E ((full.map (·.1)).getD M.values) q last = .valueError := this
    rw [this]
    rfl
  · cases h

theorem detect_nan {E : Env} {M : Model} {det : Option (List (String × PyVal))} {asked : Option Nat} {last : Bool}
    {x : List Row × Nat × ModelType} (h : M.detect E det asked last = .ok x) :
    ({ M with ratio := .nan } : Model).detect E det asked last = .error (.err .valueError) := by
  unfold Model.detect at h ⊢
  simp only at h ⊢
  split at h
  · cases h
  · rename_i he
    obtain ⟨y, h1, -⟩ := ebind_ok.1 h
    rw [he]
    simp only [Bind.bind, Except.bind]
    rw [select_nan h1]

theorem init_nan {E : Env} {vs : List PyFloat} {mp : ModelParams} {M : Model} (h : Model.init E vs mp = .ok M) :
    Model.init E vs { mp with ratio := some .nan } = .ok { M with ratio := .nan } := by
  unfold Model.init at h ⊢
  cases hv : vs.mapM finite? with
  | none => rw [hv] at h; cases h
  | some values =>
    rw [hv] at h
    simp only at h ⊢
    split at h
    · rename_i l hl
      cases hi : PyVal.asIntList? l with
      | none => rw [hi] at h; cases h
      | some idx =>
        rw [hi] at h
        obtain ⟨P, hP, h⟩ := ebind_ok.1 h
        have := epure_ok.1 h
        subst this
        simp only [hP, Bind.bind, Except.bind]
        rfl
    · cases h

/-- **C116** (NaN as `maxAnomalyRatio`): a request that is answered raises ValueError when only its `maxAnomalyRatio` is
replaced by NaN. -/
theorem C116_nan {E : Env} (hE : E.WF) {W : Wild} {d : Detector} {data : DataArg} {params : Params} {items : List Item}
    (hno : params "indices" = none) (hf : FiniteFill E data params)
    (h : (predict E W d data params).outcome = .ok items) :
    (predict E W d data (params.set "maxAnomalyRatio" (.float .nan))).outcome = .error .valueError := by
  obtain ⟨p', r, m, h1, h2, h3⟩ := predict_run hE hno hf h
  have ho : Off "maxAnomalyRatio" (params "maxAnomalyRatio") (some (.float .nan)) params
      (params.set "maxAnomalyRatio" (.float .nan)) :=
    ⟨fun x hx => (Params.set_ne _ _ hx).symm, rfl, by simp⟩
  obtain ⟨q', r', h4, ⟨h5, h6⟩, h7⟩ := rel_parseArg _ E data _ _ ho _ _ h1
  unfold predict
  rw [h4]
  simp only
  unfold afterParse
  have e2 : currentMode (d.update (some r'.code)).mode q' = some m := by
    rw [← h2]
    show currentMode d.mode q' = currentMode d.mode p'
    unfold currentMode
    rw [h7.same "detect_mode" (by decide)]
  rw [e2]
  obtain ⟨vs, M, rs, per, model, k1, k2, k3, k4⟩ := runModel_ok h3
  have e3 : runModel E m r'.hasTs r'.hasValue r'.rows r'.mp q' = .error (.err .valueError) := by
    rw [h5, h6]
    have ep : paramPeriod q' = paramPeriod p' := by
      unfold paramPeriod
      rw [h7.same "period" (by decide)]
    unfold runModel
    simp only [k1, lift, Bind.bind, Except.bind, init_nan k2]
    rw [ep, detect_nan k3]
  simp only [e3]

/-- the request of the demonstration data is answered, and with NaN it raises -/
example : okLen (predict demoEnv demoWild entireDetector (.frame true true (demoRows [1, 2, 1, 2, 1, 2, 1, 2, 1, 2, 1, 9] 3600))
      (Params.ofList [("granularity", .str "hourly")])) = some 12 ∧
    errOf (predict demoEnv demoWild entireDetector (.frame true true (demoRows [1, 2, 1, 2, 1, 2, 1, 2, 1, 2, 1, 9] 3600))
      ((Params.ofList [("granularity", .str "hourly")]).set "maxAnomalyRatio" (.float .nan))) = some .valueError := by
  decide +kernel

end Verif
